import Verif.Spec.FileTest
/-!
# C157 Tests of files and names of files
-/
namespace Verif.Props
open Verif.Model Verif.Spec

theorem aux_ft_stat (fs : String → Option FttEntry) (limit : Nat) :
    ∀ p e, fttStat fs limit p = some e ↔ ∃ n, n ≤ limit ∧ FttLeads fs n p e := by
  induction limit with
  | zero =>
    intro p e
    unfold fttStat
    constructor
    · intro h
      split at h
      · cases h
      · rename_i hl
        exact ⟨0, Nat.le_refl 0, .here p e h (fun t ht => hl t (by rw [h, ht]))⟩
    · rintro ⟨n, hn, h⟩
      cases h with
      | here _ _ hp hl =>
        rw [hp]
        split
        · rename_i t ht; injection ht with ht; exact absurd ht (hl t)
        · rfl
      | link n _ t _ hp hr => exact absurd hn (by omega)
  | succ k ih =>
    intro p e
    unfold fttStat
    constructor
    · intro h
      split at h
      · rename_i t hp
        obtain ⟨n, hn, hr⟩ := (ih t e).1 h
        exact ⟨n + 1, by omega, .link n p t e hp hr⟩
      · rename_i hl
        exact ⟨0, by omega, .here p e h (fun t ht => hl t (by rw [h, ht]))⟩
    · rintro ⟨n, hn, h⟩
      cases h with
      | here _ _ hp hl =>
        rw [hp]
        split
        · rename_i t ht; injection ht with ht; exact absurd ht (hl t)
        · rfl
      | link n _ t _ hp hr =>
        rw [hp]
        exact (ih t e).2 ⟨n, by omega, hr⟩

theorem aux_ft_noLink (fs : String → Option FttEntry) (n : Nat) (p : String) (e : FttEntry) (h : FttLeads fs n p e) : ∀ t, e ≠ .link t := by
  induction h with
  | here _ _ _ hl => exact hl
  | link _ _ _ _ _ _ ih => exact ih

theorem aux_ft_isLink (e : FttEntry) (h : ∀ t, e ≠ .link t) : fttIsLink e = false := by
  cases e with
  | link t => exact absurd rfl (h t)
  | _ => rfl

/-- **C157, tests.** Without the test for links, the answer is true exactly if every test asked for holds; the name must lead to something
also if no test for that is asked for. -/
theorem C157_tests_partial (fs : String → Option FttEntry) (limit : Nat) (p : String) (test : Nat) (hl : test.testBit (FttFlag .link) = false) :
    fttTest fs limit (some p) test = true ↔
      FttHolds fs limit p .exists ∧ ∀ a, test.testBit (FttFlag a) = true → FttHolds fs limit p a := by
  simp only [FttFlag] at hl
  constructor
  · intro h
    simp only [fttTest] at h
    split at h
    · cases h
    · rename_i e he
      simp only [hl, Bool.false_and, Bool.false_eq_true, if_false] at h
      obtain ⟨n, hn, hr⟩ := (aux_ft_stat fs limit p e).1 he
      refine ⟨⟨n, e, hn, hr⟩, fun a ha => ?_⟩
      cases a with
      | «exists» => exact ⟨n, e, hn, hr⟩
      | link => simp only [FttFlag] at ha; rw [hl] at ha; cases ha
      | dir =>
        simp only [FttFlag] at ha
        by_cases hd : e = .dir
        · subst hd; exact ⟨n, hn, hr⟩
        · simp [ha, hd] at h
      | regular =>
        simp only [FttFlag] at ha
        by_cases hd : e = .regular
        · subst hd; exact ⟨n, hn, hr⟩
        · simp [ha, hd] at h
  · rintro ⟨⟨n, e, hn, hr⟩, h⟩
    have he := (aux_ft_stat fs limit p e).2 ⟨n, hn, hr⟩
    have h3 : test.testBit 3 = true → e = .regular := fun hb => by
      have := (aux_ft_stat fs limit p .regular).2 (h .regular hb)
      rw [he] at this; injection this
    have h2 : test.testBit 2 = true → e = .dir := fun hb => by
      have := (aux_ft_stat fs limit p .dir).2 (h .dir hb)
      rw [he] at this; injection this
    simp only [fttTest, he, hl, Bool.false_and, Bool.false_eq_true, if_false]
    by_cases b3 : test.testBit 3 = true
    · have := h3 b3; subst this
      by_cases b2 : test.testBit 2 = true
      · cases h2 b2
      · simp [b2]
    · by_cases b2 : test.testBit 2 = true
      · have := h2 b2; subst this; simp [b3]
      · simp [b3, b2]

example : fttTest (fun p => if p = "a" then some (.link "b") else if p = "b" then some .regular else none) 40 (some "a") 9 = true ∧
    fttTest (fun p => if p = "a" then some (.link "b") else if p = "b" then some .regular else none) 40 (some "a") 5 = false ∧
    fttTest (fun p => if p = "a" then some (.link "a") else none) 40 (some "a") 1 = false := by decide +kernel

/-- **C157, no name.** Without a name the answer is false. -/
theorem C157_null (fs : String → Option FttEntry) (limit test : Nat) : fttTest fs limit none test = false := rfl

/-- **C157 is violated**: with the test for links the answer is false, whatever the file system and the name, also for links. -/
theorem C157_links (fs : String → Option FttEntry) (limit : Nat) (path : Option String) (test : Nat) (hl : test.testBit (FttFlag .link) = true) :
    fttTest fs limit path test = false := by
  simp only [FttFlag] at hl
  cases path with
  | none => rfl
  | some p =>
    simp only [fttTest]
    split
    · rfl
    · rename_i e he
      obtain ⟨n, hn, hr⟩ := (aux_ft_stat fs limit p e).1 he
      simp [hl, aux_ft_isLink e (aux_ft_noLink fs n p e hr)]

/-- C157 does not hold as stated. -/
theorem C157_statement_false : ¬ C157_statement := by
  intro h
  have := (h (fun p => if p = "a" then some (.link "b") else some .regular) 40 "a" 2 ⟨.link, by decide⟩).2 (fun a ha => by
    cases a with
    | link => exact ⟨"b", by simp⟩
    | «exists» => exact absurd ha (by decide)
    | dir => exact absurd ha (by decide)
    | regular => exact absurd ha (by decide))
  rw [C157_links _ _ _ _ (by decide)] at this
  cases this

/-- The tokens of a name, taken apart at the separators. -/
def aux_ft_split (sep : Char) : List Char → List Char × List (List Char)
  | [] => ([], [])
  | c :: cs =>
    let r := aux_ft_split sep cs
    if c = sep then ([], r.1 :: r.2) else (c :: r.1, r.2)

theorem aux_ft_join (sep : Char) (ts : List (List Char)) :
    ∀ r, fttJoin sep r (ts.map some ++ [none]) = r ++ (ts.map (sep :: ·)).flatten := by
  induction ts with
  | nil => intro r; simp [fttJoin]
  | cons t ts ih => intro r; simp [fttJoin, ih]

theorem aux_ft_splitOne (sep : Char) (n u : List Char) (hn : sep ∉ n) :
    aux_ft_split sep (n ++ u) = (n ++ (aux_ft_split sep u).1, (aux_ft_split sep u).2) := by
  induction n with
  | nil => rfl
  | cons c n ih =>
    simp only [List.mem_cons, not_or] at hn
    simp [aux_ft_split, ih hn.2, Ne.symm hn.1]

theorem aux_ft_splitAll (sep : Char) (ts : List (List Char)) : (∀ t ∈ ts, sep ∉ t) → ∀ n, sep ∉ n →
    aux_ft_split sep (n ++ (ts.map (sep :: ·)).flatten) = (n, ts) := by
  induction ts with
  | nil => intro _ n hn; rw [aux_ft_splitOne sep n _ hn]; simp [aux_ft_split]
  | cons t ts ih =>
    intro h n hn
    rw [aux_ft_splitOne sep n _ hn]
    have := ih (fun x hx => h x (List.mem_cons_of_mem _ hx)) t (h t List.mem_cons_self)
    simp [aux_ft_split, this]

/-- **C157, names.** The name built is the tokens with a separator between each and the next. -/
theorem C157_name (sep : Char) (n : List Char) (ts : List (List Char)) :
    fttBuild sep (some n :: ts.map some ++ [none]) = some (n ++ (ts.map (sep :: ·)).flatten) := by
  simp [fttBuild, aux_ft_join]

/-- **C157, no two alike.** Different tokens without separators give different names. -/
theorem C157_names_differ (sep : Char) (n n' : List Char) (ts ts' : List (List Char)) (hn : sep ∉ n) (hn' : sep ∉ n')
    (h : ∀ t ∈ ts, sep ∉ t) (h' : ∀ t ∈ ts', sep ∉ t)
    (e : fttBuild sep (some n :: ts.map some ++ [none]) = fttBuild sep (some n' :: ts'.map some ++ [none])) : n = n' ∧ ts = ts' := by
  rw [C157_name, C157_name] at e
  injection e with e
  have a := aux_ft_splitAll sep ts h n hn
  rw [e, aux_ft_splitAll sep ts' h' n' hn'] at a
  injection a with a b
  exact ⟨a.symm, b.symm⟩

example : fttBuild '/' [some "etc".toList, some "vortex".toList, some "conf.xml".toList, none] = some "etc/vortex/conf.xml".toList := by
  decide +kernel

end Verif.Props
