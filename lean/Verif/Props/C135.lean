import Verif.Spec.GenCode
/-!
# C135: the code written in an interface file is the code of the generated service
-/
namespace Verif.Props
open Verif.Model Verif.Spec

theorem aux_gn_added (u : List Byte) (h : gnAdded u = 0) : gnDoubled u = u := by
  induction u with
  | nil => rfl
  | cons c r ih =>
    simp only [gnAdded] at h
    by_cases hc : c = GN_PCT
    · simp [hc] at h
    · have h2 : c ≠ 37 := hc
      simp [gnDoubled, h2, ih (by omega)]

theorem aux_gn_copy (room : Nat) (u : List Byte) : ∀ done : List Byte, done.length + u.length + gnAdded u < room →
    gnCopy room u done = some (done ++ gnDoubled u) := by
  induction u with
  | nil => intro done h; simp only [gnAdded, List.length_nil] at h; simp [gnCopy, gnDoubled]; omega
  | cons c r ih =>
    intro done h
    simp only [gnAdded, List.length_cons] at h
    by_cases hc : c = GN_PCT
    · rw [if_pos hc] at h
      rw [gnCopy, if_pos hc, if_pos (by omega), ih _ (by simp; omega)]
      have h2 : c = 37 := hc
      simp [gnDoubled, h2, GN_PCT]
    · rw [if_neg hc] at h
      rw [gnCopy, if_neg hc, if_pos (by omega), ih _ (by simp; omega)]
      have h2 : c ≠ 37 := hc
      simp [gnDoubled, h2]

theorem aux_gn_escape (u : List Byte) : gnEscape u = some (gnDoubled u) := by
  unfold gnEscape
  split
  · rename_i h; rw [aux_gn_added u h]
  · rw [aux_gn_copy _ _ _ (by simp)]; simp

theorem aux_gn_formatCons (c : Byte) (r : List Byte) (h : c ≠ 37) : gnFormat (c :: r) = (gnFormat r).map (c :: ·) := by
  have h' : c ≠ GN_PCT := h
  rw [gnFormat.eq_def]; simp [h']

theorem aux_gn_doubledAppend (a b : List Byte) : gnDoubled (a ++ b) = gnDoubled a ++ gnDoubled b := by
  induction a with
  | nil => rfl
  | cons c r ih => simp only [List.cons_append, gnDoubled]; split <;> simp [ih]

theorem aux_gn_format (x : List Byte) : gnFormat (gnDoubled x) = some x := by
  induction x with
  | nil => rfl
  | cons c r ih =>
    by_cases hc : c = 37
    · subst hc; simp [gnDoubled, gnFormat, GN_PCT, ih]
    · simp [gnDoubled, hc, aux_gn_formatCons c _ hc, ih]

theorem aux_gn_str (u : List Byte) (h : (0 : Byte) ∉ u) : gnStr u = u := by
  induction u with
  | nil => rfl
  | cons c r ih =>
    simp only [List.mem_cons, not_or] at h
    have h1 : (c != NUL) = true := by simp [NUL]; exact fun e => h.1 e.symm
    unfold gnStr at ih ⊢
    rw [List.takeWhile_cons, h1]; simp [ih h.2]

/-- Octet by octet. -/
def aux_gn_scan : Bool → Nat → List Byte → Option (List Byte × List Byte)
  | _, _, [] => none
  | p, d, c :: r =>
    if p = true ∧ c = 59 then aux_gn_scan false d r
    else if c = 125 then
      match d with
      | 0 => some ([], gnAfter r)
      | d + 1 => (aux_gn_scan true d r).map fun x => (125 :: x.1, x.2)
    else if c = 123 then (aux_gn_scan false (d + 1) r).map fun x => (123 :: x.1, x.2)
    else (aux_gn_scan false d r).map fun x => (c :: x.1, x.2)

theorem aux_gn_scanCons (p : Bool) (d : Nat) (c : Byte) (r : List Byte) : aux_gn_scan p d (c :: r) =
    if p = true ∧ c = 59 then aux_gn_scan false d r
    else if c = 125 then
      match d with
      | 0 => some ([], gnAfter r)
      | d + 1 => (aux_gn_scan true d r).map fun x => (125 :: x.1, x.2)
    else if c = 123 then (aux_gn_scan false (d + 1) r).map fun x => (123 :: x.1, x.2)
    else (aux_gn_scan false d r).map fun x => (c :: x.1, x.2) := by
  rw [aux_gn_scan.eq_def]

theorem aux_gn_cutCons (c : Byte) (r : List Byte) : gnCut (c :: r) =
    if c = GN_CLOSE then
      match r with
      | [] => some ([], .close, [])
      | d :: r' => if d = GN_SEMI then some ([], .closeSemi, r') else some ([], .close, r)
    else if c = GN_OPEN then some ([], .opened, r)
    else (gnCut r).map fun x => (c :: x.1, x.2.1, x.2.2) := by
  rw [gnCut.eq_def]
  cases r <;> rfl

theorem aux_gn_cutScan (s : List Byte) : ∀ d,
    aux_gn_scan false d s =
      match gnCut s with
      | none => none
      | some (u, m, r) =>
        match m with
        | .opened => (aux_gn_scan false (d + 1) r).map fun x => (u ++ 123 :: x.1, x.2)
        | _ => match d with
          | 0 => some (u, r)
          | d + 1 => (aux_gn_scan false d r).map fun x => (u ++ 125 :: x.1, x.2) := by
  induction s with
  | nil => intro d; rfl
  | cons c r ih =>
    intro d
    by_cases h1 : c = 125
    · subst h1
      rw [aux_gn_scanCons, aux_gn_cutCons]
      simp only [GN_CLOSE, if_true, Bool.false_eq_true, false_and, if_false]
      cases r with
      | nil => cases d <;> rfl
      | cons e r' =>
        by_cases h2 : e = 59
        · subst h2
          cases d with
          | zero => simp [gnAfter, GN_SEMI]
          | succ d => simp [aux_gn_scanCons, GN_SEMI]
        · cases d with
          | zero => simp [gnAfter, GN_SEMI, h2]
          | succ d => simp [aux_gn_scanCons, GN_SEMI, h2]
    · by_cases h2 : c = 123
      · subst h2; simp [aux_gn_scanCons, aux_gn_cutCons, GN_CLOSE, GN_OPEN]
      · rw [aux_gn_scanCons, aux_gn_cutCons]
        simp only [GN_CLOSE, GN_OPEN, h1, h2, if_false, Bool.false_eq_true, false_and]
        rw [ih d]
        cases gnCut r with
        | none => rfl
        | some x =>
          obtain ⟨u, m, t⟩ := x
          cases m <;> cases d <;> simp [Option.map_map, Function.comp_def]

theorem aux_gn_cutLength (s u r : List Byte) (m : GnMark) (h : gnCut s = some (u, m, r)) :
    r.length < s.length ∧ (∀ b, b ∈ u → b ∈ s) ∧ (∀ b, b ∈ r → b ∈ s) := by
  induction s generalizing u r m with
  | nil => cases h
  | cons c t ih =>
    rw [aux_gn_cutCons] at h
    split at h
    · split at h
      · cases h; simp
      · split at h <;> cases h <;> simp <;> grind
    · split at h
      · cases h; simp; grind
      · cases hc : gnCut t with
        | none => simp [hc] at h
        | some x =>
          obtain ⟨a, b, e⟩ := x
          have := ih a e b hc
          simp only [hc, Option.map_some, Option.some.injEq, Prod.mk.injEq] at h
          obtain ⟨h1, h2, h3⟩ := h
          subst h1; subst h2; subst h3
          grind

theorem aux_gn_loop (n : Nat) : ∀ (s : List Byte) (d : Nat) (done : List Byte), s.length < n → (0 : Byte) ∉ s →
    gnLoop n s d done = (aux_gn_scan false d s).map fun x => (done ++ gnDoubled x.1, x.2) := by
  induction n with
  | zero => intro s d done h; omega
  | succ n ih =>
    intro s d done h hz
    rw [gnLoop, aux_gn_cutScan]
    cases hc : gnCut s with
    | none => rfl
    | some x =>
      obtain ⟨u, m, r⟩ := x
      obtain ⟨h1, h2, h3⟩ := aux_gn_cutLength s u r m hc
      have hu : (0 : Byte) ∉ u := fun e => hz (h2 _ e)
      have hr : (0 : Byte) ∉ r := fun e => hz (h3 _ e)
      have e1 : ∀ x : List Byte, gnDoubled (123 :: x) = 123 :: gnDoubled x := fun x => by simp [gnDoubled]
      have e2 : ∀ x : List Byte, gnDoubled (125 :: x) = 125 :: gnDoubled x := fun x => by simp [gnDoubled]
      simp only [aux_gn_str u hu, aux_gn_escape]
      cases m with
      | opened =>
        simp only [ih r _ _ (by omega) hr, Option.map_map, Function.comp_def, aux_gn_doubledAppend, e1, GN_OPEN]
        simp
      | close =>
        cases d with
        | zero => simp
        | succ d =>
          simp only [ih r _ _ (by omega) hr, Option.map_map, Function.comp_def, aux_gn_doubledAppend, e2, GN_CLOSE]
          simp
      | closeSemi =>
        cases d with
        | zero => simp
        | succ d =>
          simp only [ih r _ _ (by omega) hr, Option.map_map, Function.comp_def, aux_gn_doubledAppend, e2, GN_CLOSE]
          simp

theorem aux_gn_read (s : List Byte) (h : (0 : Byte) ∉ s) :
    gnRead s = (aux_gn_scan false 0 s).map fun x => (gnDoubled x.1, x.2) := by
  unfold gnRead
  rw [aux_gn_loop _ _ _ _ (by omega) h]
  simp

/-- Whether the octet before what follows `a` is a closing brace. -/
def aux_gn_flag : Bool → List Byte → Bool
  | p, [] => p
  | p, c :: r => if p = true ∧ c = 59 then aux_gn_flag false r else aux_gn_flag (c == 125) r

theorem aux_gn_without (a b : List Byte) : ∀ p, gnWithout p (a ++ b) = gnWithout p a ++ gnWithout (aux_gn_flag p a) b := by
  induction a with
  | nil => intro p; rfl
  | cons c r ih => intro p; simp only [List.cons_append, gnWithout, aux_gn_flag]; split <;> simp [ih]

theorem aux_gn_flagAppend (a b : List Byte) : ∀ p, aux_gn_flag p (a ++ b) = aux_gn_flag (aux_gn_flag p a) b := by
  induction a with
  | nil => intro p; rfl
  | cons c r ih => intro p; simp only [List.cons_append, aux_gn_flag]; split <;> simp [ih]

theorem aux_gn_balanced (a : List Byte) (h : GnBalanced a) : ∀ p d t,
    aux_gn_scan p d (a ++ t) = (aux_gn_scan (aux_gn_flag p a) d t).map fun x => (gnWithout p a ++ x.1, x.2) := by
  induction h with
  | nil => intro p d t; simp [aux_gn_flag, gnWithout]
  | other c r h1 h2 _ ih =>
    intro p d t
    rw [List.cons_append, aux_gn_scanCons, gnWithout, aux_gn_flag]
    by_cases hp : p = true ∧ c = 59
    · simp only [hp, and_self, if_true, ih]
    · have hq : (c == 125) = false := by simp [h2]
      simp only [hp, if_false, h1, h2, ih, hq, Option.map_map, Function.comp_def, List.cons_append]
  | nested a b _ _ iha ihb =>
    intro p d t
    have e : (123 :: (a ++ 125 :: b)) ++ t = 123 :: (a ++ (125 :: (b ++ t))) := by simp
    have hp : ¬ (p = true ∧ (123 : Byte) = 59) := by simp
    have hw : gnWithout p (123 :: (a ++ 125 :: b)) = 123 :: (gnWithout false a ++ 125 :: gnWithout true b) := by
      rw [gnWithout, if_neg hp, aux_gn_without]; simp [gnWithout]
    have hf : aux_gn_flag p (123 :: (a ++ 125 :: b)) = aux_gn_flag true b := by
      rw [aux_gn_flag, if_neg hp, aux_gn_flagAppend]; simp [aux_gn_flag]
    rw [e, aux_gn_scanCons, if_neg hp, if_neg (by decide), if_pos rfl, iha, aux_gn_scanCons, if_neg (by simp), if_pos rfl]
    simp only [ihb, Option.map_map, Function.comp_def, hw, hf]
    simp

/-- **C135, the code.** Whatever balanced code is written for a service, and whatever follows, the function generated has that code, without the semicolons that follow a closing brace at once; and the compiler goes on behind the closing brace of the service. -/
theorem C135_exact_partial (code rest : List Byte) (hb : GnBalanced code) (hz : (0 : Byte) ∉ code ++ rest) :
    gnBody (.idl (code ++ 125 :: rest)) = some (gnFunction (gnWithout false code)) ∧
    (gnRead (code ++ 125 :: rest)).map (·.2) = some (gnAfter rest) := by
  have hz' : (0 : Byte) ∉ code ++ 125 :: rest := by
    simp only [List.mem_append, not_or, List.mem_cons] at hz ⊢
    exact ⟨hz.1, by decide, hz.2⟩
  have hr := aux_gn_read _ hz'
  have hs : aux_gn_scan false 0 (code ++ 125 :: rest) = some (gnWithout false code, gnAfter rest) := by
    rw [aux_gn_balanced code hb, aux_gn_scanCons, if_neg (by simp), if_pos rfl]; simp
  rw [hs] at hr
  refine ⟨?_, by rw [hr]; rfl⟩
  simp [gnBody, gnContent, hr, aux_gn_format, gnFunction]

example : GnBalanced (lit "if (a) { b = \"%d\"; }") :=
  .other _ _ (by decide) (by decide) <| .other _ _ (by decide) (by decide) <| .other _ _ (by decide) (by decide) <|
  .other _ _ (by decide) (by decide) <| .other _ _ (by decide) (by decide) <| .other _ _ (by decide) (by decide) <|
  .other _ _ (by decide) (by decide) <|
  .nested (lit " b = \"%d\"; ") []
    (.other _ _ (by decide) (by decide) <| .other _ _ (by decide) (by decide) <| .other _ _ (by decide) (by decide) <|
     .other _ _ (by decide) (by decide) <| .other _ _ (by decide) (by decide) <| .other _ _ (by decide) (by decide) <|
     .other _ _ (by decide) (by decide) <| .other _ _ (by decide) (by decide) <| .other _ _ (by decide) (by decide) <|
     .other _ _ (by decide) (by decide) <| .other _ _ (by decide) (by decide) .nil) .nil
example : gnBody (.idl (lit "if (a) { b = \"%d\"; } } int other ();")) = some (gnFunction (lit "if (a) { b = \"%d\"; } ")) := by
  decide +kernel

theorem aux_gn_noSemi (code : List Byte) : ∀ p, (p = true → ∀ b, code ≠ 59 :: b) → (¬ GnHasCloseSemi code) → gnWithout p code = code := by
  induction code with
  | nil => intro p _ _; rfl
  | cons c r ih =>
    intro p hp hn
    rw [gnWithout]
    have h1 : ¬ (p = true ∧ c = 59) := by
      rintro ⟨h1, h2⟩; subst h2; exact hp h1 r rfl
    rw [if_neg h1, ih]
    · intro h b hb
      have hc : c = 125 := by simpa using h
      exact hn ⟨[], b, by simp [hc, hb]⟩
    · rintro ⟨a, b, hb⟩; exact hn ⟨c :: a, b, by simp [hb]⟩

/-- **C135, the code unchanged.** Balanced code in which no closing brace is followed at once by a semicolon is the code of the function, with every percent sign, quote and line as it was written. -/
theorem C135_code_partial (code rest : List Byte) (hb : GnBalanced code) (hz : (0 : Byte) ∉ code ++ rest) (hn : ¬ GnHasCloseSemi code) :
    gnBody (.idl (code ++ 125 :: rest)) = some (gnFunction code) := by
  rw [(C135_exact_partial code rest hb hz).1, aux_gn_noSemi code false (by simp) hn]

theorem aux_gn_levels (s : List Byte) : ∀ p d x, aux_gn_scan p d s = some x →
    ∃ (c : List Byte) (cs : List (List Byte)) (r : List Byte), cs.length = d ∧ GnBalanced c ∧ (∀ e ∈ cs, GnBalanced e) ∧
      s = c ++ (125 :: ((cs.map (fun e => e ++ [125])).flatten ++ r)) := by
  induction s with
  | nil => intro p d x h; cases h
  | cons c r ih =>
    intro p d x h
    rw [aux_gn_scanCons] at h
    split at h
    · rename_i hp
      obtain ⟨c0, cs, t, h1, h2, h3, h4⟩ := ih _ _ _ h
      refine ⟨c :: c0, cs, t, h1, .other _ _ ?_ ?_ h2, h3, by simp [h4]⟩ <;> simp [hp.2]
    · split at h
      · rename_i hc
        subst hc
        cases d with
        | zero => exact ⟨[], [], r, rfl, .nil, by simp, by simp⟩
        | succ d =>
          simp only [Option.map_eq_some_iff] at h
          obtain ⟨y, hy, _⟩ := h
          obtain ⟨c0, cs, t, h1, h2, h3, h4⟩ := ih _ _ _ hy
          refine ⟨[], c0 :: cs, t, by simp [h1], .nil, ?_, by simp [h4]⟩
          intro e he
          rcases List.mem_cons.1 he with h | h
          · exact h ▸ h2
          · exact h3 e h
      · split at h
        · rename_i hc
          subst hc
          simp only [Option.map_eq_some_iff] at h
          obtain ⟨y, hy, _⟩ := h
          obtain ⟨c0, cs, t, h1, h2, h3, h4⟩ := ih _ _ _ hy
          cases cs with
          | nil => simp at h1
          | cons c1 cs =>
            refine ⟨123 :: (c0 ++ 125 :: c1), cs, t, by simpa using h1, .nested _ _ h2 (h3 c1 (by simp)), fun e he => h3 e (by simp [he]), ?_⟩
            simp [h4]
        · rename_i h1 h2
          simp only [Option.map_eq_some_iff] at h
          obtain ⟨y, hy, _⟩ := h
          obtain ⟨c0, cs, t, g1, g2, g3, g4⟩ := ih _ _ _ hy
          exact ⟨c :: c0, cs, t, g1, .other _ _ h2 h1 g2, g3, by simp [g4]⟩

/-- **C135, when it works.** The compiler generates a function exactly if the text begins with balanced code that is followed by a closing brace; otherwise it crashes. -/
theorem C135_when_partial (text : List Byte) (hz : (0 : Byte) ∉ text) :
    gnBody (.idl text) ≠ none ↔ ∃ code rest, GnBalanced code ∧ text = code ++ 125 :: rest := by
  constructor
  · intro h
    have hr := aux_gn_read text hz
    cases hs : aux_gn_scan false 0 text with
    | none => rw [hs] at hr; simp [gnBody, gnContent, hr] at h
    | some x =>
      obtain ⟨c, cs, r, h1, h2, _, h4⟩ := aux_gn_levels text _ _ _ hs
      exact ⟨c, _, h2, h4⟩
  · rintro ⟨code, rest, hb, rfl⟩
    have : (0 : Byte) ∉ code ++ rest := by
      simp only [List.mem_append, not_or, List.mem_cons] at hz ⊢
      exact ⟨hz.1, hz.2.2⟩
    rw [(C135_exact_partial code rest hb this).1]; simp

example : gnBody (.idl (lit "return 1;\n}")) ≠ none := by decide +kernel

/-- **C135, memory.** Copying a piece of code with its percent signs doubled never writes outside the memory that was taken for it, and leaves room for the zero behind it. -/
theorem C135_room_partial (piece : List Byte) :
    gnCopy (piece.length + gnAdded piece + 1) piece [] = some (gnDoubled piece) := by
  rw [aux_gn_copy _ _ _ (by simp)]; simp

example : gnCopy (3 + gnAdded (lit "a%b") + 1) (lit "a%b") [] = some (lit "a%%b") := by decide +kernel

theorem aux_gn_formatPlain (x : List Byte) (h : (37 : Byte) ∉ x) : gnFormat x = some x := by
  induction x with
  | nil => rfl
  | cons c r ih =>
    simp only [List.mem_cons, not_or] at h
    have hc : c ≠ 37 := fun e => h.1 e.symm
    simp [aux_gn_formatCons c _ hc, ih h.2]

/-- **C135, interfaces in XML.** Code without percent signs, balanced or not, is the code of the function. -/
theorem C135_xml_partial (code : List Byte) (hz : (0 : Byte) ∉ code) (hp : (37 : Byte) ∉ code) :
    gnBody (.xdl code) = some (gnFunction code) := by
  simp [gnBody, gnContent, aux_gn_str code hz, aux_gn_formatPlain code hp, gnFunction]

example : gnBody (.xdl (lit "return a };")) = some (gnFunction (lit "return a };")) := C135_xml_partial _ (by decide +kernel) (by decide +kernel)

/-- **C135, included code.** Code included for the body of a service is written as it is if it has no percent signs and no semicolon right after a closing brace. -/
theorem C135_inline_partial (code rest : List Byte) (hb : GnBalanced code) (hz : (0 : Byte) ∉ code ++ rest)
    (hn : ¬ GnHasCloseSemi code) (hp : (37 : Byte) ∉ code) :
    gnIncluded (.bodyInline (code ++ 125 :: rest)) = .text (code ++ [10]) := by
  have hz' : (0 : Byte) ∉ code ++ 125 :: rest := by
    simp only [List.mem_append, not_or, List.mem_cons] at hz ⊢
    exact ⟨hz.1, by decide, hz.2⟩
  have hs : aux_gn_scan false 0 (code ++ 125 :: rest) = some (gnWithout false code, gnAfter rest) := by
    rw [aux_gn_balanced code hb, aux_gn_scanCons, if_neg (by simp), if_pos rfl]; simp
  have hd : ∀ x : List Byte, (37 : Byte) ∉ x → gnDoubled x = x := by
    intro x; induction x with
    | nil => intro _; rfl
    | cons c r ih =>
      intro h
      simp only [List.mem_cons, not_or] at h
      have hc : c ≠ 37 := fun e => h.1 e.symm
      simp [gnDoubled, hc, ih h.2]
  have hr := aux_gn_read _ hz'
  rw [hs, aux_gn_noSemi code false (by simp) hn, Option.map_some, hd code hp] at hr
  simp [gnIncluded, hr, LF]

example : gnIncluded (.bodyInline (lit "#include <a.h>\n};")) = .text (lit "#include <a.h>\n\n") := by decide +kernel

theorem aux_gn_blocks (n : Nat) : ∀ f : List Byte, f.length < n → (0 : Byte) ∉ f → gnBlocks n f = f := by
  induction n with
  | zero => intro f h; omega
  | succ n ih =>
    intro f h hz
    rw [gnBlocks, aux_gn_str _ (fun e => hz (List.mem_of_mem_take e))]
    split
    · rw [List.take_of_length_le (by omega)]; simp
    · rename_i hl
      rw [ih _ (by simp; omega) (fun e => hz (List.mem_of_mem_drop e)), List.take_append_drop]

/-- **C135, included files.** A file included for the body of a service is written as it is, whatever its length. -/
theorem C135_file_partial (f : List Byte) (hz : (0 : Byte) ∉ f) :
    gnIncluded (.bodyFile (.content f)) = .text (f ++ [10]) := by
  simp [gnIncluded, gnFile, aux_gn_blocks (f.length + 1) f (by omega) hz, LF]

example : gnIncluded (.bodyFile (.content (List.replicate 5000 97))) = .text (List.replicate 5000 97 ++ [10]) :=
  C135_file_partial _ (by rw [List.mem_replicate]; decide)

/-- **C135, services without code.** The function written for a service of a basic type returns a value. -/
theorem C135_default_partial (t : GnType) (h : ∀ n, t ≠ .named n) : gnDefault t ≠ [] := by
  cases t with
  | named n => exact absurd rfl (h n)
  | _ => decide +kernel

example : gnDefault .string = lit "NULL" := by decide +kernel

/-- **C135 is violated**: the semicolon behind the closing brace of an initializer is lost; the code that is generated does not compile. -/
theorem C135_semicolonLost :
    gnBody (.idl (lit "int a[] = {1, 2}; return a[0]; }")) = some (gnFunction (lit "int a[] = {1, 2} return a[0]; ")) := by
  decide +kernel

/-- **C135 is violated**: a brace in a string ends the service in the middle of its code. -/
theorem C135_braceInString :
    (gnRead (lit "put (\"}\"); return 0; }")) = some (lit "put (\"", lit "\"); return 0; }") := by
  decide +kernel

/-- **C135 is violated**: an interface file that ends inside the code of a service crashes the compiler. -/
theorem C135_unclosed : gnBody (.idl (lit "if (a) { return 1; }")) = none := by decide +kernel

/-- **C135 is violated**: in an interface in XML a percent sign of the code is taken for a conversion, without an argument. -/
theorem C135_xmlFormat : gnBody (.xdl (lit "printf (\"%s\", name);")) = none := by decide +kernel

/-- **C135 is violated**: and the remainder of a division becomes one percent sign of two. -/
theorem C135_xmlHalved : gnBody (.xdl (lit "printf (\"10%%\");")) = some (gnFunction (lit "printf (\"10%\");")) := by decide +kernel

/-- **C135 is violated**: percent signs of code included for the body are doubled. -/
theorem C135_includeDoubled :
    gnIncluded (.bodyInline (lit "#define REST(a,b) (a % b)\n}")) = .text (lit "#define REST(a,b) (a %% b)\n\n") := by decide +kernel

/-- **C135 is violated**: what is included for the header is read and written nowhere, whatever it is. -/
theorem C135_headerLost (f : List Byte) : gnIncluded (.headerFile (.content f)) = .text [] := rfl

/-- **C135 is violated**: the compiler never ends if the name of a directory is given for the file. -/
theorem C135_directory : gnIncluded (.bodyFile .directory) = .forever := rfl

/-- **C135 is violated**: a service without code that returns a struct or an array of the interface, with any name but the words the compiler knows, returns nothing. -/
theorem C135_nothingReturned (n : List Byte) (h : n ∉ [lit "int", lit "double", lit "bool", lit "string", lit "struct", lit "array", lit "base64"]) :
    gnDefault (.named n) = [] := by
  simp only [List.mem_cons, not_or, List.not_mem_nil, not_false_eq_true, and_true] at h
  obtain ⟨h1, h2, h3, h4, h5, h6, h7⟩ := h
  simp [gnDefault, GnType.word, h1, h2, h3, h4, h5, h6, h7]

example : gnDefault (.named (lit "Values")) = [] := C135_nothingReturned _ (by decide +kernel)

/-- C135 does not hold as stated. -/
theorem C135_statement_false : ¬ C135_statement := by
  intro h
  exact h.2.2.1 _ C135_unclosed

end Verif.Props
