import Verif.Spec.GenFiles
/-!
# C136: the compiler replaces a file only if the user says so
-/
namespace Verif.Props
open Verif.Model Verif.Spec

theorem aux_gf_set (f : List Byte → Option (List Byte)) (p q : List Byte) (v : Option (List Byte)) :
    gfSet f p v q = if q = p then v else f q := rfl

theorem aux_gf_temp (p : List Byte) : gfTemp p = gfDraft p := rfl

theorem aux_gf_tempNe (p : List Byte) : p ≠ gfTemp p := by
  intro h
  have := congrArg List.length h
  simp [gfTemp, lit] at this

theorem aux_gf_equal (a : List Byte) : ∀ b, gfEqual a b = true ↔ a = b := by
  induction a with
  | nil => intro b; cases b <;> simp [gfEqual]
  | cons x r ih =>
    intro b
    cases b with
    | nil => simp [gfEqual]
    | cons y t =>
      simp only [gfEqual]
      split
      · rename_i h; simp [ih, h]
      · rename_i h; simp [h]

theorem aux_gf_lines (s : List Byte) : gfLines s ≠ [] := by
  cases s with
  | nil => simp [gfLines]
  | cons c r => simp only [gfLines]; split <;> (try split) <;> simp

/-- Reading one line: the first line, and the lines that follow. -/
theorem aux_gf_take (n : Nat) : ∀ (s l : List Byte) (ls : List (List Byte)), gfLines s = l :: ls → l.length < n →
    (gfTake n s).1 = l ∧
    (((gfTake n s).2.2 = true ∧ ls = []) ∨ ((gfTake n s).2.2 = false ∧ ls = gfLines (gfTake n s).2.1 ∧ (gfTake n s).2.1.length < s.length)) := by
  induction n with
  | zero => intro s l ls _ h; omega
  | succ n ih =>
    intro s l ls h hn
    cases s with
    | nil => simp [gfLines] at h; simp [gfTake, h]
    | cons c r =>
      simp only [gfLines] at h
      by_cases hc : c = 10
      · subst hc
        simp only [if_true, List.cons.injEq] at h
        obtain ⟨h1, h2⟩ := h
        subst h1; subst h2
        simp [gfTake, LF]
      · simp only [hc, if_false] at h
        cases hr : gfLines r with
        | nil => exact absurd hr (aux_gf_lines r)
        | cons l' t =>
          simp only [hr, List.cons.injEq] at h
          obtain ⟨h1, h2⟩ := h
          subst h1; subst h2
          simp only [List.length_cons] at hn
          obtain ⟨g1, g2⟩ := ih r l' t hr (by omega)
          have hl : c ≠ LF := hc
          simp only [gfTake, hl, if_false]
          refine ⟨by rw [g1], ?_⟩
          rcases g2 with g | ⟨g, g', g''⟩
          · exact .inl g
          · exact .inr ⟨g, g', by simp only [List.length_cons]; omega⟩

theorem aux_gf_str (u : List Byte) (h : (0 : Byte) ∉ u) : gnStr u = u := by
  induction u with
  | nil => rfl
  | cons c r ih =>
    simp only [List.mem_cons, not_or] at h
    have h1 : (c != NUL) = true := by simp [NUL]; exact fun e => h.1 e.symm
    unfold gnStr at ih ⊢
    rw [List.takeWhile_cons, h1]; simp [ih h.2]

theorem aux_gf_ask (n : Nat) : ∀ s : List Byte, s.length + 2 ≤ n → GfTyped s →
    (gfAsk n s false).map (·.1) = gfFirst (gfLines s) := by
  induction n with
  | zero => intro s h; omega
  | succ n ih =>
    intro s h ht
    cases hl : gfLines s with
    | nil => exact absurd hl (aux_gf_lines s)
    | cons l ls =>
      have hlt := ht l (by rw [hl]; simp)
      obtain ⟨g1, g2⟩ := aux_gf_take 1024 s l ls hl hlt.1
      have w : lit "w" = [119] := by decide +kernel
      have ss : lit "s" = [115] := by decide +kernel
      rw [gfAsk]
      simp only [Bool.false_eq_true, if_false, g1, aux_gf_str l hlt.2, w, ss]
      simp only [gfFirst, List.findSome?_cons, gfAnswer]
      by_cases h1 : l = [119]
      · simp [h1]
      · by_cases h2 : l = [115]
        · simp [h2]
        · simp only [h1, h2, if_false]
          rcases g2 with ⟨g, g'⟩ | ⟨g, g', g''⟩
          · subst g'
            rw [g]
            cases n <;> simp [gfAsk]
          · rw [g, ih _ (by omega) (fun x hx => ht x (by rw [hl, g']; simp [hx])), ← g']
            rfl

/-- **C136, new files.** A file that is not there is written, without a question, and nothing else changes. -/
theorem C136_new_partial (s : Gf) (path content : List Byte) (h : s.files path = none) (hh : s.hangs = false) :
    (s.write path content).files path = some content ∧ (s.write path content).asked = s.asked ∧ (s.write path content).hangs = false ∧
    (s.write path content).files (gfDraft path) = none ∧
    ∀ q, q ≠ path → q ≠ gfDraft path → (s.write path content).files q = s.files q := by
  have hn := aux_gf_tempNe path
  rw [← aux_gf_temp]
  unfold Gf.write
  simp only [hh, Bool.false_eq_true, if_false, aux_gf_set, if_neg hn, h]
  refine ⟨by simp, trivial, trivial, ?_, ?_⟩
  · rw [if_neg (fun e => hn e.symm)]; simp
  · intro q h1 h2; simp [h1, h2]

example : (Gf.write { files := fun _ => none, input := [] } (lit "out/a.c") (lit "x")).files (lit "out/a.c") = some (lit "x") := by
  decide +kernel

/-- **C136, files that are the same.** A file with the content that is to be written stays as it is, without a question, and nothing else changes. -/
theorem C136_same_partial (s : Gf) (path content : List Byte) (h : s.files path = some content) (hh : s.hangs = false) :
    (s.write path content).files path = some content ∧ (s.write path content).asked = s.asked ∧ (s.write path content).hangs = false ∧
    (s.write path content).files (gfDraft path) = none ∧
    ∀ q, q ≠ gfDraft path → (s.write path content).files q = s.files q := by
  have hn := aux_gf_tempNe path
  rw [← aux_gf_temp]
  unfold Gf.write
  simp only [hh, Bool.false_eq_true, if_false, aux_gf_set, if_neg hn, h, (aux_gf_equal content content).2 rfl, if_true]
  refine ⟨by simp, trivial, trivial, trivial, ?_⟩
  intro q h2; simp [h2]

example : (Gf.write { files := fun _ => some [1], input := [] } (lit "out/a.c") [1]).asked = [] := by decide +kernel

/-- **C136, files that differ.** The user is asked once for the file, and the first line that is an answer decides, whatever other lines come before it: the file is replaced if the answer is to write and keeps its content if it is to skip. Without such a line the compiler asks for ever, and the file keeps its content. -/
theorem C136_differs_partial (s : Gf) (path content old : List Byte) (h : s.files path = some old) (hd : old ≠ content)
    (hh : s.hangs = false) (he : s.ended = false) (ht : GfTyped s.input) :
    (s.write path content).asked = s.asked ++ [path] ∧
    (s.write path content).files path = (if gfFirst (gfLines s.input) = some true then some content else some old) ∧
    ((s.write path content).hangs = true ↔ gfFirst (gfLines s.input) = none) ∧
    ∀ q, q ≠ path → q ≠ gfDraft path → (s.write path content).files q = s.files q := by
  have hn := aux_gf_tempNe path
  have ha := aux_gf_ask (s.input.length + 2) s.input (by omega) ht
  have hq : gfEqual old content = false := by
    cases hq : gfEqual old content with
    | false => rfl
    | true => exact absurd ((aux_gf_equal _ _).1 hq) hd
  rw [← aux_gf_temp]
  unfold Gf.write
  simp only [hh, he, Bool.false_eq_true, if_false, aux_gf_set, if_neg hn, h, hq]
  cases hk : gfAsk (s.input.length + 2) s.input false with
  | none =>
    rw [hk] at ha
    simp only [Option.map_none] at ha
    simp only [← ha]
    refine ⟨by simp, by simp [aux_gf_set, hn, h], by simp, fun q _ h2 => by simp [aux_gf_set, h2]⟩
  | some x =>
    obtain ⟨b, rest, e⟩ := x
    rw [hk] at ha
    simp only [Option.map_some] at ha
    simp only [← ha]
    cases b
    · refine ⟨by simp, by simp [aux_gf_set, hn, h], by simp [hh], fun q _ h2 => by simp [aux_gf_set, h2]⟩
    · refine ⟨by simp, by simp [aux_gf_set], by simp [hh], fun q h1 h2 => by simp [aux_gf_set, h1, h2]⟩

example : (Gf.write { files := fun _ => some [1], input := lit "yes\nw\n" } (lit "a.c") [2]).files (lit "a.c") = some [2] := by decide +kernel
example : gfFirst (gfLines (lit "yes\nw\n")) = some true := by decide +kernel
example : GfTyped (lit "yes\nw\n") := by unfold GfTyped; decide +kernel

theorem aux_gf_takeRest (n : Nat) : ∀ s : List Byte, ∃ a, s = a ++ (gfTake n s).2.1 := by
  induction n with
  | zero => intro s; exact ⟨[], rfl⟩
  | succ n ih =>
    intro s
    cases s with
    | nil => exact ⟨[], rfl⟩
    | cons c r =>
      simp only [gfTake]
      split
      · exact ⟨[c], rfl⟩
      · obtain ⟨a, ha⟩ := ih r
        exact ⟨c :: a, by simp [← ha]⟩

theorem aux_gf_takeOf (n : Nat) : ∀ s : List Byte, ∀ b ∈ (gfTake n s).1, b ∈ s := by
  induction n with
  | zero => intro s b h; simp [gfTake] at h
  | succ n ih =>
    intro s b h
    cases s with
    | nil => simp [gfTake] at h
    | cons c r =>
      simp only [gfTake] at h
      split at h
      · simp at h
      · simp only [List.mem_cons] at h
        rcases h with h | h
        · simp [h]
        · simp [ih r b h]

/-- Without the letter there is no answer to write. -/
theorem aux_gf_askNoW (n : Nat) : ∀ (s : List Byte) (e : Bool), (119 : Byte) ∉ s → ∀ x, gfAsk n s e = some x →
    x.1 = false ∧ (119 : Byte) ∉ x.2.1 := by
  induction n with
  | zero => intro s e _ x h; cases h
  | succ n ih =>
    intro s e hw x h
    rw [gfAsk] at h
    split at h
    · cases h
    · obtain ⟨a, ha⟩ := aux_gf_takeRest 1024 s
      have hr : (119 : Byte) ∉ (gfTake 1024 s).2.1 := fun e => hw (by rw [ha]; simp [e])
      dsimp only at h
      split at h
      · rename_i hq
        exfalso
        have hw2 : (119 : Byte) ∈ gnStr (gfTake 1024 s).1 := by rw [hq]; decide +kernel
        exact hw (aux_gf_takeOf 1024 s _ ((List.takeWhile_sublist _).mem hw2))
      · split at h
        · cases h; exact ⟨rfl, hr⟩
        · exact ih _ _ hr x h

theorem aux_gf_keptStep (s : Gf) (path content : List Byte) (hw : (119 : Byte) ∉ s.input) (q : List Byte) (v : List Byte)
    (hq : s.files q = some v) (hd : q ≠ gfTemp path) :
    (s.write path content).files q = some v ∧ (119 : Byte) ∉ (s.write path content).input := by
  have hn := aux_gf_tempNe path
  unfold Gf.write
  split
  · exact ⟨hq, hw⟩
  · dsimp only
    rw [aux_gf_set, if_neg hn]
    cases hp : s.files path with
    | none =>
      have : q ≠ path := fun e => by rw [e, hp] at hq; cases hq
      simp [aux_gf_set, this, hd, hq, hw]
    | some old =>
      dsimp only
      split
      · simp [aux_gf_set, hd, hq, hw]
      · cases hk : gfAsk (s.input.length + 2) s.input s.ended with
        | none => simp [aux_gf_set, hd, hq, hw]
        | some x =>
          obtain ⟨h1, h2⟩ := aux_gf_askNoW _ _ _ hw x hk
          obtain ⟨b, rest, e⟩ := x
          dsimp only at h1 h2
          subst h1
          simp [aux_gf_set, hd, hq, h2]

/-- **C136, nothing is lost.** In a run over any files, with any input in which the letter `w` does not occur, every file that was there keeps its content, but for those with a name the compiler uses while it writes. -/
theorem C136_kept_partial (out : List (List Byte × List Byte)) : ∀ (s : Gf), (119 : Byte) ∉ s.input → ∀ q v, s.files q = some v →
    (∀ x ∈ out, q ≠ gfDraft x.1) → (s.run out).files q = some v := by
  induction out with
  | nil => intro s _ q v h _; exact h
  | cons x t ih =>
    intro s hw q v hq hd
    obtain ⟨h1, h2⟩ := aux_gf_keptStep s x.1 x.2 hw q v hq (hd x (by simp))
    exact ih (s.write x.1 x.2) h2 q v h1 (fun y hy => hd y (by simp [hy]))

example : (Gf.run { files := fun p => if p = lit "a.c" then some [1] else none, input := lit "s\n" } [(lit "a.c", [2]), (lit "b.c", [3])]).files (lit "a.c") = some [1] := by
  decide +kernel

theorem aux_gf_othersStep (s : Gf) (path content q : List Byte) (h1 : q ≠ path) (h2 : q ≠ gfTemp path) :
    (s.write path content).files q = s.files q := by
  unfold Gf.write
  dsimp only
  repeat' split
  all_goals simp [aux_gf_set, h1, h2]

/-- **C136, other files.** A run changes no file but those it is to write and their drafts. -/
theorem C136_others_partial (out : List (List Byte × List Byte)) : ∀ (s : Gf) q, (∀ x ∈ out, q ≠ x.1 ∧ q ≠ gfDraft x.1) →
    (s.run out).files q = s.files q := by
  induction out with
  | nil => intro s q _; rfl
  | cons x t ih =>
    intro s q h
    have := ih (s.write x.1 x.2) q (fun y hy => h y (by simp [hy]))
    rw [aux_gf_othersStep s x.1 x.2 q (h x (by simp)).1 (h x (by simp)).2] at this
    exact this

example : (Gf.run { files := fun p => if p = lit "a.c" then some [1] else none, input := [] } [(lit "b.c", [3])]).files (lit "a.c") = some [1] := by
  decide +kernel

theorem aux_gf_freshStep (s : Gf) (path content : List Byte) (hh : s.hangs = false) (h : s.files path = none) :
    (s.write path content).hangs = false ∧ (s.write path content).asked = s.asked :=
  ⟨(C136_new_partial s path content h hh).2.2.1, (C136_new_partial s path content h hh).2.1⟩

/-- **C136, a first run.** A run into a directory without files of these names asks nothing, ends, and writes every file, if the names differ and none is the draft of another. -/
theorem C136_first_partial (out : List (List Byte × List Byte)) : ∀ (s : Gf), s.hangs = false →
    (∀ x ∈ out, s.files x.1 = none) → (out.map (·.1)).Nodup → (∀ x ∈ out, ∀ y ∈ out, x.1 ≠ gfDraft y.1) →
    (s.run out).hangs = false ∧ (s.run out).asked = s.asked ∧ ∀ x ∈ out, (s.run out).files x.1 = some x.2 := by
  induction out with
  | nil => intro s h _ _ _; exact ⟨h, rfl, by simp⟩
  | cons x t ih =>
    intro s hh hf hnd hdr
    obtain ⟨h1, h2, h3, _, h5⟩ := C136_new_partial s x.1 x.2 (hf x (by simp)) hh
    simp only [List.map_cons, List.nodup_cons, List.mem_map, not_exists, not_and] at hnd
    have hne : ∀ y ∈ t, y.1 ≠ x.1 := fun y hy => hnd.1 y hy
    obtain ⟨g1, g2, g3⟩ := ih (s.write x.1 x.2) h3
      (fun y hy => by rw [h5 y.1 (hne y hy) (hdr y (by simp [hy]) x (by simp))]; exact hf y (by simp [hy]))
      hnd.2 (fun y hy z hz => hdr y (by simp [hy]) z (by simp [hz]))
    refine ⟨g1, by rw [← h2]; exact g2, ?_⟩
    intro y hy
    rcases List.mem_cons.1 hy with e | e
    · subst e
      have := C136_others_partial t (s.write y.1 y.2) y.1 (fun z hz => ⟨fun e => hne z hz e.symm, hdr y (by simp) z (by simp [hz])⟩)
      exact this.trans h1
    · exact g3 y e

example : (Gf.run { files := fun _ => none, input := [] } [(lit "a.c", [2]), (lit "b.c", [3])]).files (lit "b.c") = some [3] := by
  decide +kernel

/-- **C136 is violated**: when the input ends before an answer, the compiler asks for ever. -/
theorem C136_asksForever : (Gf.write { files := fun _ => some [1], input := [] } (lit "a.c") [2]).hangs = true := by decide +kernel

/-- **C136 is violated**: a file that is skipped leaves its draft behind. -/
theorem C136_draftLeft :
    (Gf.write { files := fun p => if p = lit "a.c" then some [1] else none, input := lit "s\n" } (lit "a.c") [2]).files (lit "a.c.xml-rpc-gen-version") = some [2] := by
  decide +kernel

/-- **C136 is violated**: of a line of 1024 octets and more, what follows is taken for an answer. -/
theorem C136_longLine :
    (Gf.write { files := fun _ => some [1], input := List.replicate 1024 97 ++ lit "w\n" } (lit "a.c") [2]).files (lit "a.c") = some [2] ∧
    gfFirst (gfLines (List.replicate 1024 97 ++ lit "w\n")) = none := by
  decide +kernel

/-- **C136 is violated**: of two services whose files have the same name, the second is written over the first, or the user is asked about a file that was not there. -/
theorem C136_asksAboutItself :
    (Gf.run { files := fun _ => none, input := lit "w\n" } [(lit "a.c", [1]), (lit "a.c", [2])]).asked = [lit "a.c"] ∧
    (Gf.run { files := fun _ => none, input := lit "w\n" } [(lit "a.c", [1]), (lit "a.c", [2])]).files (lit "a.c") = some [2] := by
  decide +kernel

/-- **C136 is violated**: the status of the program is that of success, whatever could not be compiled. -/
theorem C136_status (oks : List Bool) : (gfMain oks).2 = 0 := by
  induction oks with
  | nil => rfl
  | cons b r ih => simp only [gfMain]; split <;> simp [ih]

/-- **C136, the interface files.** Those before the first that cannot be compiled are compiled, and no other. -/
theorem C136_compiled_partial (oks : List Bool) : (gfMain oks).1 = (oks.takeWhile id).length := by
  induction oks with
  | nil => rfl
  | cons b r ih => cases b <;> simp [gfMain, ih]

example : gfMain [true, false, true] = (1, 0) := by decide +kernel

/-- C136 does not hold as stated. -/
theorem C136_statement_false : ¬ C136_statement := by
  intro h
  have := h.1 (fun _ => some [1]) [] [(lit "a.c", [2])]
  have e : (Gf.run { files := fun _ => some [1], input := [] } [(lit "a.c", [2])]).hangs = true := C136_asksForever
  rw [e] at this
  cases this

end Verif.Props
