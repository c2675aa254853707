import Verif.Spec.Greetings
import Verif.Props.Mime
/-!
# C49, C50: the greetings
-/
namespace Verif.Props
open Verif.Model Verif.Spec

/-! ### C49: the message built -/

/-- The property: the message built is the greetings of this program, it never writes behind its buffer (of 5100
octets), and gives up only if there is no room (up to some 22 octets). -/
def C49_statement : Prop :=
  ∀ (features localize : Option (List Byte)) (filtered : List Byte → Bool) (profiles : List (List Byte)),
    let text := greetingText features localize profiles (profiles.filter fun p => !filtered p)
    buildGreeting 5100 features localize filtered profiles ≠ .overrun ∧
    (∀ t, buildGreeting 5100 features localize filtered profiles = .built t → t = text) ∧
    (buildGreeting 5100 features localize filtered profiles = .refused → 5100 ≤ text.length + 22)

theorem aux_gr_put {size b o r} (h : greetingPut size b o = some r) : r = b ++ o ∧ b.length + o.length ≤ size := by
  unfold greetingPut at h
  split at h
  · cases h; exact ⟨rfl, by assumption⟩
  · cases h

theorem aux_gr_put_some {size} (b o : List Byte) (h : b.length + o.length ≤ size) : greetingPut size b o = some (b ++ o) := by
  unfold greetingPut; rw [if_pos h]

theorem aux_gr_attr {size name value b r} (h : greetingAttribute size name value b = some r) : r = b ++ attributeText name value := by
  unfold greetingAttribute at h
  cases value with
  | none => cases h; simp [attributeText]
  | some v =>
    simp only [Option.bind_eq_bind, Option.bind_eq_some_iff] at h
    obtain ⟨b1, h1, b2, h2, h3⟩ := h
    have e1 := (aux_gr_put h1).1
    have e2 := (aux_gr_put h2).1
    have e3 := (aux_gr_put h3).1
    subst e1 e2 e3
    simp [attributeText, List.append_assoc]

theorem aux_gr_attr_some {size} (name : List Byte) (value : Option (List Byte)) (b : List Byte)
    (h : b.length + (attributeText name value).length ≤ size) : greetingAttribute size name value b = some (b ++ attributeText name value) := by
  unfold greetingAttribute
  cases value with
  | none => simp [attributeText]
  | some v =>
    simp only [attributeText, List.length_append] at h
    simp only [Option.bind_eq_bind]
    rw [aux_gr_put_some _ _ (by simp only [List.length_append]; omega), Option.bind_some,
      aux_gr_put_some _ _ (by simp only [List.length_append]; omega), Option.bind_some,
      aux_gr_put_some _ _ (by simp only [List.length_append]; omega)]
    simp [attributeText, List.append_assoc]

theorem aux_gr_profile_length (uri : List Byte) : (profileText uri).length = uri.length + 23 := by
  have h1 : (lit "   <profile uri='").length = 17 := by decide
  have h2 : (lit "' />\r\n").length = 6 := by decide
  simp only [profileText, List.length_append, h1, h2]
  omega

theorem aux_gr_profiles {size filtered} : ∀ (l : List (List Byte)) (b : List Byte),
    (∀ t, greetingProfiles size filtered b l = .built t →
      t = b ++ (l.filter fun p => !filtered p).flatMap profileText ++ lit "</greeting>\r\n" ∧ t.length ≤ size) ∧
    (greetingProfiles size filtered b l = .refused →
      size ≤ (b ++ (l.filter fun p => !filtered p).flatMap profileText ++ lit "</greeting>\r\n").length) ∧
    (b.length + 13 ≤ size → greetingProfiles size filtered b l ≠ .overrun) := by
  have h13 : (lit "</greeting>\r\n").length = 13 := by decide
  intro l
  induction l with
  | nil =>
    intro b
    unfold greetingProfiles greetingPut
    refine ⟨fun t h => ?_, fun h => ?_, fun h => ?_⟩
    · split at h
      · rename_i h2; split at h2 <;> cases h
      · rename_i h2; split at h2
        · cases h2; cases h
          exact ⟨(by simp), (by rw [List.length_append]; assumption)⟩
        · cases h2
    · split at h <;> cases h
    · rw [if_pos (by omega)]; simp
  | cons uri l ih =>
    intro b
    unfold greetingProfiles
    cases hf : filtered uri with
    | true =>
      simp only [↓reduceIte, List.filter_cons, hf, Bool.not_true, Bool.false_eq_true]
      exact ih b
    | false =>
      simp only [Bool.false_eq_true, ↓reduceIte, List.filter_cons, hf, Bool.not_false, List.flatMap_cons]
      by_cases hs : b.length + uri.length + 36 ≥ size
      · rw [if_pos hs]
        refine ⟨(fun t h => by cases h), fun _ => ?_, fun _ => by simp⟩
        simp only [List.length_append, aux_gr_profile_length, h13]
        omega
      · rw [if_neg hs]
        have h1 : (lit "   <profile uri='").length = 17 := by decide
        have h2 : (lit "' />\r\n").length = 6 := by decide
        have e : (do
            let b ← greetingPut size b (lit "   <profile uri='")
            let b ← greetingPut size b uri
            greetingPut size b (lit "' />\r\n")) = some (b ++ profileText uri) := by
          simp only [Option.bind_eq_bind]
          rw [aux_gr_put_some _ _ (by omega), Option.bind_some,
            aux_gr_put_some _ _ (by simp only [List.length_append]; omega), Option.bind_some,
            aux_gr_put_some _ _ (by simp only [List.length_append]; omega)]
          simp [profileText, List.append_assoc]
        rw [e]
        obtain ⟨i1, i2, i3⟩ := ih (b ++ profileText uri)
        refine ⟨fun t h => ?_, fun h => ?_, fun _ => ?_⟩
        · have := i1 t h
          simpa [List.append_assoc] using this
        · have := i2 h
          simpa [List.append_assoc] using this
        · exact i3 (by simp only [List.length_append, aux_gr_profile_length]; omega)

theorem aux_gr_attr_length (name : List Byte) (h : name.length = 8) (v : Option (List Byte)) :
    (attributeText name v).length ≤ (v.getD []).length + 12 ∧ (v.getD []).length ≤ (attributeText name v).length := by
  cases v with
  | none => simp [attributeText]
  | some v =>
    have h1 : (lit " ").length = 1 := by decide
    have h2 : (lit "='").length = 2 := by decide
    have h3 : (lit "'").length = 1 := by decide
    simp only [attributeText, List.length_append, h1, h2, h3, h, Option.getD_some]
    omega

/-- **C49**, the text: whatever the buffer, what is built is the greetings of this program. -/
theorem C49_text (size : Nat) (features localize : Option (List Byte)) (filtered : List Byte → Bool) (profiles : List (List Byte))
    (t : List Byte) (h : buildGreeting size features localize filtered profiles = .built t) :
    t = greetingText features localize profiles (profiles.filter fun p => !filtered p) ∧ t.length ≤ size := by
  unfold buildGreeting at h
  split at h
  · cases h
  · split at h
    · cases h
    · rename_i b hb
      simp only [Option.bind_eq_bind, Option.bind_eq_some_iff] at hb
      obtain ⟨b1, h1, b2, h2, h3⟩ := hb
      have e1 := (aux_gr_put h1).1
      have e2 := aux_gr_attr h2
      have e3 := aux_gr_attr h3
      subst e1 e2 e3
      unfold greetingText
      split at h
      · rename_i hp
        rw [if_pos hp]
        split at h
        · cases h
        · rename_i b2 h4
          obtain ⟨e4, h5⟩ := aux_gr_put h4
          cases h
          subst e4
          exact ⟨(by simp [List.append_assoc]), (by simp only [List.length_append] at h5 ⊢; omega)⟩
      · rename_i hp
        rw [if_neg hp]
        split at h
        · cases h
        · rename_i b2 h4
          have e4 := (aux_gr_put h4).1
          subst e4
          have := (aux_gr_profiles profiles _).1 t h
          exact ⟨by rw [this.1]; simp [List.append_assoc], this.2⟩

theorem aux_gr_head {size : Nat} {features localize : Option (List Byte)}
    (h : (features.getD []).length + (localize.getD []).length + 33 ≤ size) :
    (do
      let b ← greetingPut size [] (lit "<greeting")
      let b ← greetingAttribute size (lit "features") features b
      greetingAttribute size (lit "localize") localize b) =
    some (lit "<greeting" ++ attributeText (lit "features") features ++ attributeText (lit "localize") localize) := by
  have h9 : (lit "<greeting").length = 9 := by decide
  have hf := aux_gr_attr_length (lit "features") (by decide) features
  have hl := aux_gr_attr_length (lit "localize") (by decide) localize
  simp only [Option.bind_eq_bind]
  rw [aux_gr_put_some _ _ (by simp only [List.length_nil]; omega), Option.bind_some, List.nil_append,
    aux_gr_attr_some _ _ _ (by omega), Option.bind_some,
    aux_gr_attr_some _ _ _ (by simp only [List.length_append]; omega)]

/-- **C49**: it gives up only if there is (up to 22 octets) no room. -/
theorem C49_refused_only_if_large (size : Nat) (features localize : Option (List Byte)) (filtered : List Byte → Bool)
    (profiles : List (List Byte)) (h : buildGreeting size features localize filtered profiles = .refused) :
    size ≤ (greetingText features localize profiles (profiles.filter fun p => !filtered p)).length + 22 := by
  have h9 : (lit "<greeting").length = 9 := by decide
  have h5 : (lit " />\r\n").length = 5 := by decide
  have h3 : (lit ">\r\n").length = 3 := by decide
  have h13 : (lit "</greeting>\r\n").length = 13 := by decide
  have hf := aux_gr_attr_length (lit "features") (by decide) features
  have hl := aux_gr_attr_length (lit "localize") (by decide) localize
  unfold buildGreeting at h
  unfold greetingText
  split at h
  · split <;> simp only [List.length_append] <;> omega
  · rw [aux_gr_head (by omega)] at h
    dsimp only at h
    split at h
    · split at h <;> cases h
    · rename_i hp
      rw [if_neg hp]
      split at h
      · cases h
      · rename_i b hb
        have e := (aux_gr_put hb).1
        subst e
        have := (aux_gr_profiles profiles _).2.1 h
        simp only [List.length_append] at this ⊢
        omega

/-- **C49**, partial: it stays inside of its buffer when `features` and `localize` together leave 49 octets. Missing:
larger values, see `C49_no_profile_overrun` and `C49_filtered_overrun`. -/
theorem C49_inside_partial (size : Nat) (features localize : Option (List Byte)) (filtered : List Byte → Bool)
    (profiles : List (List Byte)) (h : (features.getD []).length + (localize.getD []).length + 49 ≤ size) :
    buildGreeting size features localize filtered profiles ≠ .overrun := by
  have h9 : (lit "<greeting").length = 9 := by decide
  have h5 : (lit " />\r\n").length = 5 := by decide
  have h3 : (lit ">\r\n").length = 3 := by decide
  have hf := aux_gr_attr_length (lit "features") (by decide) features
  have hl := aux_gr_attr_length (lit "localize") (by decide) localize
  unfold buildGreeting
  split
  · simp
  · rw [aux_gr_head (by omega)]
    dsimp only
    split
    · rw [aux_gr_put_some _ _ (by simp only [List.length_append]; omega)]; simp
    · rw [aux_gr_put_some _ _ (by simp only [List.length_append]; omega)]
      exact (aux_gr_profiles profiles _).2.2 (by simp only [List.length_append]; omega)

example : ∃ t, buildGreeting 5100 (some (lit "x-a x-b")) none (fun p => p = lit "urn:b") [lit "urn:a", lit "urn:b"] = .built t ∧
    t = lit "<greeting features='x-a x-b'>\r\n   <profile uri='urn:a' />\r\n</greeting>\r\n" := ⟨_, by decide +kernel, rfl⟩
example : buildGreeting 5100 none none (fun _ => false) (List.replicate 300 (lit "urn:a")) = .refused := by decide +kernel

/-- Without profiles, two long attributes: the last octet is written behind the buffer. -/
theorem C49_no_profile_overrun :
    buildGreeting 5100 (some (List.replicate 5000 120)) (some (List.replicate 63 121)) (fun _ => false) [] = .overrun := by
  decide +kernel

/-- All profiles filtered: the closing tag is written without looking for room. -/
theorem C49_filtered_overrun :
    buildGreeting 5100 (some (List.replicate 5000 120)) (some (List.replicate 63 121)) (fun _ => true) [lit "urn:a"] = .overrun := by
  decide +kernel

theorem C49_statement_false : ¬ C49_statement := by
  intro h
  exact (h _ _ _ _).1 C49_no_profile_overrun

theorem aux_gr_quote : ∀ {a b x y : List Byte}, quotable a → quotable b → a ++ 39 :: x = b ++ 39 :: y → a = b ∧ x = y
  | [], [], x, y, _, _, h => by simpa using h
  | [], c :: b, x, y, _, hb, h => by
    simp only [List.nil_append, List.cons_append, List.cons.injEq] at h
    exact absurd (by rw [← h.1]; exact List.mem_cons_self) hb
  | c :: a, [], x, y, ha, _, h => by
    simp only [List.nil_append, List.cons_append, List.cons.injEq] at h
    exact absurd (by rw [h.1]; exact List.mem_cons_self) ha
  | c :: a, d :: b, x, y, ha, hb, h => by
    simp only [List.cons_append, List.cons.injEq] at h
    obtain ⟨i1, i2⟩ := aux_gr_quote (fun m => ha (List.mem_cons_of_mem _ m)) (fun m => hb (List.mem_cons_of_mem _ m)) h.2
    exact ⟨by rw [h.1, i1], i2⟩

theorem aux_gr_attr_inj {name : List Byte} {v w : Option (List Byte)} {x y : List Byte} (hv : ∀ s, v = some s → quotable s)
    (hw : ∀ s, w = some s → quotable s) (hn : ¬ (lit " " ++ name ++ lit "='") <+: x) (hm : ¬ (lit " " ++ name ++ lit "='") <+: y)
    (h : attributeText name v ++ x = attributeText name w ++ y) : v = w ∧ x = y := by
  cases v with
  | none =>
    cases w with
    | none => exact ⟨rfl, by simpa [attributeText] using h⟩
    | some t =>
      refine absurd ?_ hn
      simp only [attributeText, List.nil_append] at h
      rw [h]
      exact ⟨t ++ lit "'" ++ y, by simp [List.append_assoc]⟩
  | some s =>
    cases w with
    | none =>
      refine absurd ?_ hm
      simp only [attributeText, List.nil_append] at h
      rw [← h]
      exact ⟨s ++ lit "'" ++ x, by simp [List.append_assoc]⟩
    | some t =>
      simp only [attributeText, List.append_assoc, List.append_cancel_left_eq] at h
      have := aux_gr_quote (hv s rfl) (hw t rfl) h
      exact ⟨by rw [this.1], this.2⟩

theorem aux_gr_profiles_inj : ∀ {l m : List (List Byte)}, (∀ p ∈ l, quotable p) → (∀ p ∈ m, quotable p) →
    l.flatMap profileText ++ lit "</greeting>\r\n" = m.flatMap profileText ++ lit "</greeting>\r\n" → l = m
  | [], [], _, _, _ => rfl
  | [], q :: m, _, _, h => by
    simp only [List.flatMap_nil, List.nil_append, List.flatMap_cons, profileText, List.append_assoc] at h
    have := congrArg List.head? h
    revert this
    simp [lit]
  | p :: l, [], _, _, h => by
    simp only [List.flatMap_nil, List.nil_append, List.flatMap_cons, profileText, List.append_assoc] at h
    have := congrArg List.head? h
    revert this
    simp [lit]
  | p :: l, q :: m, hl, hm, h => by
    simp only [List.flatMap_cons, profileText, List.append_assoc, List.append_cancel_left_eq] at h
    obtain ⟨i1, i2⟩ := aux_gr_quote (hl p List.mem_cons_self) (hm q List.mem_cons_self) h
    have i3 := List.append_cancel_left (as := [32, 47, 62, 13, 10]) i2
    rw [i1, aux_gr_profiles_inj (fun x hx => hl x (List.mem_cons_of_mem _ hx)) (fun x hx => hm x (List.mem_cons_of_mem _ hx)) i3]

/-- **C49**: the greetings tell the peer the profiles, features and languages exactly: two programs with the same text
announce the same. For values without apostrophe; see `C49_apostrophe`. -/
theorem C49_unambiguous_partial (f f' z z' : Option (List Byte)) (r r' o o' : List (List Byte))
    (hf : ∀ s, f = some s → quotable s) (hf' : ∀ s, f' = some s → quotable s)
    (hz : ∀ s, z = some s → quotable s) (hz' : ∀ s, z' = some s → quotable s)
    (ho : ∀ p ∈ o, quotable p) (ho' : ∀ p ∈ o', quotable p) (hr : r = [] → o = []) (hr' : r' = [] → o' = [])
    (h : greetingText f z r o = greetingText f' z' r' o') : f = f' ∧ z = z' ∧ o = o' := by
  unfold greetingText at h
  simp only [List.append_assoc, List.append_cancel_left_eq] at h
  have tail : ∀ (r o : List (List Byte)) (name : List Byte), name ≠ [] → name.head? ≠ some 47 →
      ¬ (lit " " ++ name ++ lit "='") <+: (if r = [] then lit " />\r\n" else lit ">\r\n" ++ (o.flatMap profileText ++ lit "</greeting>\r\n")) := by
    intro r o name hn hh ⟨t, ht⟩
    obtain ⟨c, name, rfl⟩ := List.exists_cons_of_ne_nil hn
    split at ht
    · simp only [lit] at ht
      simp at ht
      exact hh (by rw [← ht.1]; rfl)
    · simp [lit] at ht
  have one := aux_gr_attr_inj hf hf' ?_ ?_ h
  · have two := aux_gr_attr_inj hz hz' (tail _ _ _ (by decide) (by decide)) (tail _ _ _ (by decide) (by decide)) one.2
    refine ⟨one.1, two.1, ?_⟩
    have e := two.2
    by_cases h1 : r = [] <;> by_cases h2 : r' = []
    · rw [hr h1, hr' h2]
    · rw [if_pos h1, if_neg h2] at e; simp [lit] at e
    · rw [if_neg h1, if_pos h2] at e; simp [lit] at e
    · rw [if_neg h1, if_neg h2, List.append_cancel_left_eq] at e
      exact aux_gr_profiles_inj ho ho' e
  all_goals
    intro hp
    have : ∀ (z : Option (List Byte)) (r o : List (List Byte)), ¬ (lit " " ++ lit "features" ++ lit "='") <+:
        (attributeText (lit "localize") z ++ (if r = [] then lit " />\r\n" else lit ">\r\n" ++ (o.flatMap profileText ++ lit "</greeting>\r\n"))) := by
      intro z r o hq
      cases z with
      | none => exact tail r o _ (by decide) (by decide) hq
      | some s =>
        obtain ⟨t, ht⟩ := hq
        simp [attributeText, lit] at ht
    exact this _ _ _ hp

example : quotable (lit "http://iana.org/beep/TLS") := by unfold quotable; decide

/-- A profile identifier with an apostrophe is written as it is: it announces something else. -/
theorem C49_apostrophe :
    buildGreeting 5100 none none (fun _ => false) [lit "urn:a' />\r\n   <profile uri='urn:b"] =
    buildGreeting 5100 none none (fun _ => false) [lit "urn:a", lit "urn:b"] := by decide +kernel

end Verif.Props
