import Verif.Model.ChannelNumbers
/-!
# C27: automatic channel numbers
-/
namespace Verif.Props
open Verif.Model

/-- What happens on a connection. -/
inductive NumOp
  /-- a number is asked for -/
  | next (turns : Nat)
  /-- a channel is created, by either peer -/
  | add (n : Int)
  | remove (n : Int)
  deriving DecidableEq, Repr

def numStep (c : ConnNumbers) : NumOp → ConnNumbers
  | .next turns => (c.next turns).2
  | .add n => (c.add n).2
  | .remove n => c.remove n

def numRun (c : ConnNumbers) : List NumOp → ConnNumbers
  | [] => c
  | op :: ops => numRun (numStep c op) ops

/-- What a number handed out should be. -/
structure GoodNumber (initiator : Bool) (used : List Int) (n : Int) : Prop where
  range : 1 ≤ n ∧ n ≤ 2147483647
  free : n ∉ used
  parity : n % 2 = if initiator then 1 else 0

/-- C27 in full: whatever was asked for, created and removed before, numbers handed out are good. -/
def C27_statement : Prop := ∀ (initiator : Bool) (ops : List NumOp) (turns : Nat),
  match ((numRun (.new initiator) ops).next turns).1 with
  | .number n => GoodNumber initiator (numRun (.new initiator) ops).used n
  | .overflow => False
  | .unfinished => True

theorem aux_tmod (x : Int) (h : 0 ≤ x) (h' : x ≤ 2147483647) :
    x.tmod maxChannels = if x = 2147483647 then 0 else x := by
  rw [show maxChannels = 2147483647 from rfl, Int.tmod_eq_emod_of_nonneg h]
  split
  · rename_i hx; rw [hx, Int.emod_self]
  · exact Int.emod_eq_of_lt h (by omega)

theorem aux_around (x : Int) (h : 0 ≤ x) (h' : x ≤ 1073741823) :
    x % 1073741823 = if x = 1073741823 then 0 else x := by
  split
  · rename_i hx; rw [hx, Int.emod_self]
  · exact Int.emod_eq_of_lt h (by omega)

theorem aux_bump_initiator {c : ConnNumbers} (hi : c.initiator = true) (i : Int) (h0 : 0 ≤ i)
    (h1 : i < 1073741823) (hl : c.last = 2 * i + 1) : c.bump = some (2 * ((i + 1) % 1073741823) + 1) := by
  have hle : ¬ c.last + 2 > 2147483647 := by omega
  rw [ConnNumbers.bump, if_neg hle]
  simp only [aux_tmod (c.last + 2) (by omega) (by omega), aux_around (i + 1) (by omega) (by omega), hi, if_true]
  by_cases hx : i + 1 = 1073741823
  · have h2 : c.last + 2 = 2147483647 := by omega
    simp only [if_pos hx, if_pos h2, if_true]
    rfl
  · have h2 : ¬ c.last + 2 = 2147483647 := by omega
    have h3 : ¬ c.last + 2 = 0 := by omega
    simp only [if_neg hx, if_neg h2, if_neg h3]
    exact congrArg some (by omega)

theorem aux_next_initiator (turns : Nat) : ∀ {c : ConnNumbers}, c.initiator = true → ∀ i : Int, 0 ≤ i →
    i < 1073741823 → c.last = 2 * i + 1 →
    (c.next turns).2.initiator = true ∧ (c.next turns).2.used = c.used ∧
    (∃ j : Int, 0 ≤ j ∧ j < 1073741823 ∧ (c.next turns).2.last = 2 * j + 1) ∧
    match (c.next turns).1 with
    | .number n => GoodNumber true c.used n
    | .overflow => False
    | .unfinished => ∀ k : Nat, k < turns → 2 * ((i + 1 + k) % 1073741823) + 1 ∈ c.used := by
  induction turns with
  | zero =>
    intro c hi i h0 h1 hl
    exact ⟨hi, rfl, ⟨i, h0, h1, hl⟩, fun k hk => absurd hk (Nat.not_lt_zero k)⟩
  | succ turns ih =>
    intro c hi i h0 h1 hl
    have hb := aux_bump_initiator hi i h0 h1 hl
    have hj0 : 0 ≤ (i + 1) % 1073741823 := by omega
    have hj1 : (i + 1) % 1073741823 < 1073741823 := by omega
    have hex : c.exists (2 * ((i + 1) % 1073741823) + 1) = c.used.contains (2 * ((i + 1) % 1073741823) + 1) := by
      rw [ConnNumbers.exists, if_neg (by omega), if_neg (by omega)]
    by_cases he : c.used.contains (2 * ((i + 1) % 1073741823) + 1) = true
    · have hstep : c.next (turns + 1) = ({ c with last := 2 * ((i + 1) % 1073741823) + 1 } : ConnNumbers).next turns := by
        simp only [ConnNumbers.next, hb, hex, he, if_true]
      rw [hstep]
      obtain ⟨a1, a2, a3, a4⟩ :=
        ih (c := { c with last := 2 * ((i + 1) % 1073741823) + 1 }) hi ((i + 1) % 1073741823) hj0 hj1 rfl
      refine ⟨a1, a2, a3, ?_⟩
      generalize (({ c with last := 2 * ((i + 1) % 1073741823) + 1 } : ConnNumbers).next turns).1 = r at a4
      cases r with
      | number n => exact a4
      | overflow => exact a4
      | unfinished =>
        intro k hk
        cases k with
        | zero => simpa using he
        | succ k =>
          have := a4 k (by omega)
          have e : ((i + 1) % 1073741823 + 1 + (k : Int)) % 1073741823 = (i + 1 + ((k + 1 : Nat) : Int)) % 1073741823 := by
            omega
          rw [e] at this
          exact this
    · have hstep : c.next (turns + 1) = (.number (2 * ((i + 1) % 1073741823) + 1),
          { c with last := 2 * ((i + 1) % 1073741823) + 1 }) := by
        simp only [ConnNumbers.next, hb, hex, he]; rfl
      rw [hstep]
      refine ⟨hi, rfl, ⟨_, hj0, hj1, rfl⟩, ⟨by omega, by simpa using he, ?_⟩⟩
      simp only [if_true]; omega

theorem aux_reach_initiator (ops : List NumOp) : ∀ c : ConnNumbers, c.initiator = true →
    (∃ i : Int, 0 ≤ i ∧ i < 1073741823 ∧ c.last = 2 * i + 1) → (numRun c ops).initiator = true ∧
    ∃ i : Int, 0 ≤ i ∧ i < 1073741823 ∧ (numRun c ops).last = 2 * i + 1 := by
  induction ops with
  | nil => intro c h1 h2; exact ⟨h1, h2⟩
  | cons op ops ih =>
    intro c h1 h2
    refine ih _ ?_ ?_
    · cases op with
      | next turns => obtain ⟨i, a, b, d⟩ := h2; exact (aux_next_initiator turns h1 i a b d).1
      | add n => simp only [numStep, ConnNumbers.add]; split <;> exact h1
      | remove n => exact h1
    · cases op with
      | next turns => obtain ⟨i, a, b, d⟩ := h2; exact (aux_next_initiator turns h1 i a b d).2.2.1
      | add n => simp only [numStep, ConnNumbers.add]; split <;> exact h2
      | remove n => exact h2

/-- C27 for the initiator of the connection, in full: after any history, any number of turns. -/
theorem C27_initiator (ops : List NumOp) (turns : Nat) :
    match ((numRun (.new true) ops).next turns).1 with
    | .number n => GoodNumber true (numRun (.new true) ops).used n
    | .overflow => False
    | .unfinished => True := by
  obtain ⟨h1, i, h2, h3, h4⟩ := aux_reach_initiator ops (.new true) rfl ⟨0, by decide, by decide, rfl⟩
  have := (aux_next_initiator turns h1 i h2 h3 h4).2.2.2
  generalize ((numRun (.new true) ops).next turns).1 = r at this
  cases r with
  | number n => exact this
  | overflow => exact this
  | unfinished => trivial

theorem aux_pigeon : ∀ (l l' : List Int), l.Nodup → (∀ x ∈ l, x ∈ l') → l.length ≤ l'.length := by
  intro l
  induction l with
  | nil => intro l' _ _; simp
  | cons x l ih =>
    intro l' hn hs
    rw [List.nodup_cons] at hn
    have hx : x ∈ l' := hs x List.mem_cons_self
    have hle := ih (l'.erase x) hn.2 (fun y hy => by
      have hne : y ≠ x := fun h => hn.1 (h ▸ hy)
      exact (List.mem_erase_of_ne hne).mpr (hs y (List.mem_cons_of_mem _ hy)))
    have hlen := List.length_erase_of_mem hx
    have hpos : 0 < l'.length := List.length_pos_of_mem hx
    simp only [List.length_cons]
    omega

/-- C27: the search ends: with fewer than 2^30 - 1 channels in use, the initiator gets a number within 2^30 - 1
turns of the loop. -/
theorem C27_initiator_found (ops : List NumOp) (turns : Nat) (ht : turns = 1073741823)
    (h : (numRun (.new true) ops).used.length < turns) :
    ∃ n, ((numRun (.new true) ops).next turns).1 = .number n := by
  obtain ⟨h1, i, h2, h3, h4⟩ := aux_reach_initiator ops (.new true) rfl ⟨0, by decide, by decide, rfl⟩
  generalize numRun (.new true) ops = c at *
  have hm := (aux_next_initiator turns h1 i h2 h3 h4).2.2.2
  generalize (c.next turns).1 = r at hm
  cases r with
  | number n => exact ⟨n, rfl⟩
  | overflow => exact absurd hm id
  | unfinished =>
    exfalso
    have hall : ∀ x ∈ (List.range turns).map (fun (k : Nat) => 2 * ((i + 1 + (k : Int)) % 1073741823) + 1), x ∈ c.used := by
      intro x hx
      obtain ⟨k, hk, rfl⟩ := List.mem_map.mp hx
      exact hm k (List.mem_range.mp hk)
    have hnd : ((List.range turns).map (fun (k : Nat) => 2 * ((i + 1 + (k : Int)) % 1073741823) + 1)).Nodup := by
      refine List.pairwise_map.mpr ?_
      refine List.Pairwise.imp_of_mem ?_ List.nodup_range
      intro a b ha hb hne
      have := List.mem_range.mp ha
      have := List.mem_range.mp hb
      omega
    have := aux_pigeon _ _ hnd hall
    rw [List.length_map, List.length_range] at this
    omega

/-- Listener: until the numbers have been gone through once, `last_channel` is even. -/
theorem aux_next_listener (turns : Nat) : ∀ {c : ConnNumbers}, c.initiator = false → ∀ i : Int, 1 ≤ i →
    i ≤ 1073741823 → c.last = 2 * i →
    (c.next turns).2.initiator = false ∧ (c.next turns).2.used = c.used ∧
    (∃ j : Int, 1 ≤ j ∧ j ≤ 1073741823 ∧ (c.next turns).2.last = 2 * j) ∧
    match (c.next turns).1 with
    | .number n => GoodNumber false c.used n
    | .overflow => (c.next turns).2.last = 2147483646
    | .unfinished => True := by
  induction turns with
  | zero => intro c hi i h0 h1 hl; exact ⟨hi, rfl, ⟨i, h0, h1, hl⟩, trivial⟩
  | succ turns ih =>
    intro c hi i h0 h1 hl
    by_cases hov : c.last + 2 > 2147483647
    · have hb : c.bump = none := by rw [ConnNumbers.bump, if_pos hov]
      have hstep : c.next (turns + 1) = (.overflow, c) := by simp only [ConnNumbers.next, hb]
      rw [hstep]
      exact ⟨hi, rfl, ⟨i, h0, h1, hl⟩, by show c.last = _; omega⟩
    · have hb : c.bump = some (2 * (i + 1)) := by
        have hn : ¬ c.last + 2 = 2147483647 := by omega
        have hz : ¬ c.last + 2 = 0 := by omega
        rw [ConnNumbers.bump, if_neg hov]
        simp only [aux_tmod (c.last + 2) (by omega) (by omega), if_neg hn, if_neg hz]
        exact congrArg some (by omega)
      have hex : c.exists (2 * (i + 1)) = c.used.contains (2 * (i + 1)) := by
        rw [ConnNumbers.exists, if_neg (by omega), if_neg (by omega)]
      by_cases he : c.used.contains (2 * (i + 1)) = true
      · have hstep : c.next (turns + 1) = ({ c with last := 2 * (i + 1) } : ConnNumbers).next turns := by
          simp only [ConnNumbers.next, hb, hex, he, if_true]
        rw [hstep]
        exact ih (c := { c with last := 2 * (i + 1) }) hi (i + 1) (by omega) (by omega) rfl
      · have hstep : c.next (turns + 1) = (.number (2 * (i + 1)), { c with last := 2 * (i + 1) }) := by
          simp only [ConnNumbers.next, hb, hex, he]; rfl
        rw [hstep]
        refine ⟨hi, rfl, ⟨i + 1, by omega, by omega, rfl⟩, ⟨by omega, by simpa using he, ?_⟩⟩
        show _ = 0
        omega

theorem aux_reach_listener (ops : List NumOp) : ∀ c : ConnNumbers, c.initiator = false →
    (∃ i : Int, 1 ≤ i ∧ i ≤ 1073741823 ∧ c.last = 2 * i) → (numRun c ops).initiator = false ∧
    ∃ i : Int, 1 ≤ i ∧ i ≤ 1073741823 ∧ (numRun c ops).last = 2 * i := by
  induction ops with
  | nil => intro c h1 h2; exact ⟨h1, h2⟩
  | cons op ops ih =>
    intro c h1 h2
    refine ih _ ?_ ?_
    · cases op with
      | next turns => obtain ⟨i, a, b, d⟩ := h2; exact (aux_next_listener turns h1 i a b d).1
      | add n => simp only [numStep, ConnNumbers.add]; split <;> exact h1
      | remove n => exact h1
    · cases op with
      | next turns => obtain ⟨i, a, b, d⟩ := h2; exact (aux_next_listener turns h1 i a b d).2.2.1
      | add n => simp only [numStep, ConnNumbers.add]; split <;> exact h2
      | remove n => exact h2

/-- C27 for the listener, the part that holds: numbers handed out are good. Missing: the numbers do not begin
again after 2147483646: the sum overflows (`C27_listener_overflow`). -/
theorem C27_listener_partial (ops : List NumOp) (turns : Nat) :
    match ((numRun (.new false) ops).next turns).1 with
    | .number n => GoodNumber false (numRun (.new false) ops).used n
    | .overflow => ((numRun (.new false) ops).next turns).2.last = 2147483646
    | .unfinished => True := by
  obtain ⟨h1, i, h2, h3, h4⟩ := aux_reach_listener ops (.new false) rfl ⟨1, by decide, by decide, rfl⟩
  exact (aux_next_listener turns h1 i h2 h3 h4).2.2.2

/-- The listener overflows after 2^30 - 2 numbers, with no channel in use. -/
theorem C27_listener_overflow : ∃ ops, (numRun (.new false) ops).used = [0] ∧
    ((numRun (.new false) ops).next 1).1 = .overflow := by
  have key : ∀ k : Nat, k ≤ 1073741822 →
      numRun (.new false) (List.replicate k (.next 1)) = ⟨false, 2 + 2 * k, [0]⟩ := by
    have gen : ∀ (k : Nat) (m : Int), 2 ≤ m → m + 2 * k ≤ 2147483646 →
        numRun ⟨false, m, [0]⟩ (List.replicate k (.next 1)) = ⟨false, m + 2 * k, [0]⟩ := by
      intro k
      induction k with
      | zero => intro m _ _; simp [numRun]
      | succ k ih =>
        intro m hm hle
        have hov : ¬ m + 2 > 2147483647 := by omega
        have hb : (⟨false, m, [0]⟩ : ConnNumbers).bump = some (m + 2) := by
          have hn : ¬ m + 2 = 2147483647 := by omega
          have hz : ¬ m + 2 = 0 := by omega
          rw [ConnNumbers.bump, if_neg hov]
          simp only [aux_tmod (m + 2) (by omega) (by omega), if_neg hn, if_neg hz]
        have hex : (⟨false, m, [0]⟩ : ConnNumbers).exists (m + 2) = false := by
          rw [ConnNumbers.exists, if_neg (by omega), if_neg (by omega)]
          simp only [List.contains_cons, List.contains_nil, Bool.or_false, beq_eq_false_iff_ne]
          omega
        have hst : numStep ⟨false, m, [0]⟩ (.next 1) = ⟨false, m + 2, [0]⟩ := by
          simp only [numStep, ConnNumbers.next, hb, hex]; rfl
        rw [List.replicate_succ, numRun, hst, ih (m + 2) (by omega) (by omega)]
        have e : m + 2 + 2 * (k : Int) = m + 2 * ((k + 1 : Nat) : Int) := by omega
        rw [e]
    intro k hk
    have := gen k 2 (by decide) (by omega)
    exact this
  obtain ⟨N, hN⟩ : ∃ N : Nat, N = 1073741822 := ⟨_, rfl⟩
  have hk := key N (by omega)
  have hb : (⟨false, 2 + 2 * (N : Int), [0]⟩ : ConnNumbers).bump = none := by
    have : 2 + 2 * (N : Int) + 2 > 2147483647 := by omega
    rw [ConnNumbers.bump, if_pos this]
  refine ⟨List.replicate N (.next 1), ?_, ?_⟩
  · rw [hk]
  · rw [hk]
    simp only [ConnNumbers.next, hb]

theorem C27_statement_false : ¬ C27_statement := by
  intro h
  obtain ⟨ops, _, h2⟩ := C27_listener_overflow
  have := h false ops 1
  rw [h2] at this
  exact this

/-- C27: a channel whose number is in use on the connection is refused. -/
theorem C27_add_refused (c : ConnNumbers) (n : Int) (h : n ∈ c.used) : c.add n = (false, c) := by
  rw [ConnNumbers.add, if_pos (by simpa using h)]

/-- Channels 3 and 5 in use, 7 handed out; 3 removed and still not handed out before going round. -/
example : ((numRun (.new true) [.next 9, .add 3, .add 5, .remove 3]).next 9).1 = .number 7 := by decide +kernel
example : ((numRun (.new false) [.next 9, .add 4, .add 6]).next 9).1 = .number 8 := by decide +kernel

end Verif.Props
