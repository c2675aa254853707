import Verif.Spec.SocketPipe
/-!
# C154 — a pipe made of two sockets
-/
namespace Verif.Props
open Verif.Model Verif.Spec

/-- If nobody else connects to the port before the process does, and its number can be read, a
pipe that is reported as made has its two ends connected with each other and leaves nothing else open. -/
theorem C154_own_partial (w : PipWorld) (h : PipAlone w) (a b : Nat) (p : PipPeer) (l : List Nat) (hm : pipMake w = (.made a b p, l)) :
    p = .own a ∧ l = [a, b] ∧ w.client = some a ∧ w.accepted = some b := by
  obtain ⟨h1, h2⟩ := h
  unfold pipMake at hm
  split at hm
  · cases hm
  · split at hm
    · cases hm
    · split at hm
      · cases hm
      · split at hm
        · cases hm
        · split at hm
          · cases hm
          · rename_i c hc
            split at hm
            · cases hm
            · simp only [pipBacklog, h1, h2, List.map_nil, List.nil_append, if_true, List.cons_append] at hm
              split at hm
              · cases hm
              · rename_i d hd
                split at hm
                · cases hm
                · cases hm; exact ⟨rfl, rfl, hc, hd⟩

example : pipMake ⟨some 5, true, true, true, some 6, true, [], [9], some 7⟩ = (.made 6 7 (.own 6), [6, 7]) := rfl

/-- … and it returns as documented if, besides, no descriptor below three is given out, and the connection can be
made and accepted once there are sockets for it. -/
theorem C154_good_partial (w : PipWorld) (h : PipAlone w) (hl : ∀ l, w.listener = some l → 2 < l) (hc : w.connect = true)
    (ha : ∃ d, w.accepted = some (d + 1)) : PipGood (pipMake w) := by
  obtain ⟨h1, h2⟩ := h
  obtain ⟨d, hd⟩ := ha
  unfold pipMake
  cases hx : w.listener with
  | none => exact Or.inr rfl
  | some l =>
    have := hl l hx
    simp only [show ¬ l ≤ 2 by omega, if_false]
    cases w.bind with
    | false => exact Or.inr rfl
    | true =>
      cases w.listen with
      | false => exact Or.inr rfl
      | true =>
        cases w.client with
        | none => exact Or.inr rfl
        | some c =>
          refine Or.inl ⟨c, d + 1, ?_⟩
          simp [hc, hd, pipBacklog, h1, h2]

example : PipAlone ⟨some 5, true, true, true, none, true, [], [], some 7⟩ := ⟨rfl, rfl⟩

/-- If the call returns, the listener is closed, whatever happened, unless it has one of the three
standard descriptors. -/
theorem C154_listener (w : PipWorld) (l : Nat) (hl : w.listener = some l) (h2 : 2 < l) (hc : w.client ≠ some l)
    (ha : w.accepted ≠ some l) (hw : (pipMake w).1 ≠ .waits) : l ∉ (pipMake w).2 := by
  unfold pipMake at hw ⊢
  rw [hl] at hw ⊢
  simp only [show ¬ l ≤ 2 by omega, if_false] at hw ⊢
  cases hbi : w.bind with
  | false => simp
  | true =>
    cases hli : w.listen with
    | false => simp
    | true =>
      simp only [hbi, hli, Bool.not_true, Bool.false_eq_true, if_false] at hw ⊢
      cases hx : w.client with
      | none => simp
      | some c =>
        rw [hx] at hw hc
        have hcl : ¬ l = c := fun e => hc (by rw [e])
        dsimp only at hw ⊢
        cases hco : w.connect with
        | false => simp [hcl]
        | true =>
          simp only [hco, Bool.not_true, Bool.false_eq_true, if_false] at hw ⊢
          cases hb : pipBacklog w c with
          | nil => rw [hb] at hw; exact absurd rfl hw
          | cons p q =>
            dsimp only
            cases hd : w.accepted with
            | none => simp [hcl]
            | some d =>
              rw [hd] at ha
              have hdl : ¬ l = d := fun e => ha (by rw [e])
              dsimp only
              split <;> simp [hcl, hdl]

example : (pipMake ⟨some 5, true, true, true, some 6, false, [], [], some 7⟩).2 = [6] := rfl

/-- Anyone who connects to the port first becomes the other end of the pipe, whatever comes after. -/
theorem C154_stolen (l c d x : Nat) (xs ys : List Nat) (n : Bool) (hl : 2 < l) :
    pipMake ⟨some l, true, true, n, some c, true, x :: xs, ys, some (d + 1)⟩ = (.made c (d + 1) (.other x), [c, d + 1]) := by
  simp [pipMake, pipBacklog, show ¬ l ≤ 2 by omega]

/-- A connection that cannot be made or accepted leaves a descriptor open, at every call. -/
theorem C154_leak (w : PipWorld) (l c : Nat) (hl : w.listener = some l) (h2 : 2 < l) (hb : w.bind = true) (hs : w.listen = true)
    (hc : w.client = some c) (hn : w.connect = false ∨ (w.accepted = none ∧ pipBacklog w c ≠ [])) : pipMake w = (.failed, [c]) := by
  unfold pipMake
  simp only [hl, hb, hs, hc, show ¬ l ≤ 2 by omega, if_false, Bool.not_true, Bool.false_eq_true]
  rcases hn with hn | ⟨hn, hne⟩
  · simp [hn]
  · cases w.connect with
    | false => simp
    | true =>
      cases hp : pipBacklog w c with
      | nil => exact absurd hp hne
      | cons p q => simp [hn]

/-- A process without standard input loses one descriptor at every call. -/
theorem C154_low (w : PipWorld) (l : Nat) (hl : w.listener = some l) (h2 : l ≤ 2) : pipMake w = (.failed, [l]) := by
  simp [pipMake, hl, h2]

/-- If the port cannot be read, the call connects elsewhere and waits. -/
theorem C154_waits (l c : Nat) (a : Option Nat) (hl : 2 < l) :
    pipMake ⟨some l, true, true, false, some c, true, [], [], a⟩ = (.waits, [l, c]) := by
  simp [pipMake, pipBacklog, show ¬ l ≤ 2 by omega]

/-- … or accepts whoever connects to the port first, however late. -/
theorem C154_late (l c d x : Nat) (ys : List Nat) (hl : 2 < l) :
    pipMake ⟨some l, true, true, false, some c, true, [], x :: ys, some (d + 1)⟩ = (.made c (d + 1) (.other x), [c, d + 1]) := by
  simp [pipMake, pipBacklog, show ¬ l ≤ 2 by omega]

theorem C154_statement_false : ¬ C154_statement := by
  intro h
  have := h ⟨some 5, true, true, true, some 6, true, [9], [], some 7⟩
  rw [C154_stolen 5 6 6 9 [] [] true (by decide)] at this
  rcases this with ⟨a, b, e⟩ | e
  · simp at e
  · simp at e

end Verif.Props
