import Verif.Spec.IoSet
/-!
# C74, C75: waiting for descriptors
-/
namespace Verif.Props
open Verif.Model Verif.Spec

/-- C74, full, for both mechanisms: whatever the limit of the system is, the sets are used without undefined behaviour, they hold
exactly what was added since they were cleared, and with enough memory nothing is refused below the limit. False of the code. -/
def C74_statement : Prop :=
  ∀ (limit : Nat) (ops : List IoOp), (∀ op ∈ ops, ioLimitIs (some limit) op) →
    (∃ r, (PollSet.create (i32 limit)).run ops = some r ∧ r.1.items = ioAdded [] ops r.2 ∧
      ∀ fd c s', r.1.step (.add (some limit) true true fd c) = some (s', false) → limit ≤ r.1.items.length) ∧
    (∃ r, (EPollSet.create (i32 limit)).run ops = some r ∧ r.1.items = ioFirstByFd (ioAdded [] ops r.2) ∧
      ∀ fd c s', r.1.step (.add (some limit) true true fd c) = some (s', false) → limit ≤ r.1.length)

theorem aux_io_wanted (r : IoReady) (read : Bool) : r.wanted read = ioOfInterest read r := by cases read <;> rfl

theorem aux_io_i32 (r : Nat) (h : r ≤ 1073741824) : i32 r = r := by unfold i32; omega

theorem aux_io_next (cur hard : Int) (k : Nat) (h0 : 0 ≤ cur) (hh : hard ≤ 1073741824) (hk : k = 8 ∨ k = 12) :
    (hard ≤ cur ∧ ioNextSize cur hard k = some cur) ∨ ∃ n, ioNextSize cur hard k = some n ∧ cur < n ∧ n ≤ hard := by
  unfold ioNextSize
  split
  · exact .inl ⟨by omega, rfl⟩
  · right
    rw [if_neg (by omega)]
    dsimp only
    have hu : ∀ n : Int, 0 ≤ n → n ≤ 1073741824 → ¬ u64 n > 18446744073709551615 / k := by
      intro n h1 h2
      have : u64 n = n.toNat := by
        unfold u64; rw [Int.emod_eq_of_lt h1 (by omega)]
      rcases hk with rfl | rfl <;> omega
    by_cases hc : cur > 0
    · simp only [hc, if_true]
      split
      · rw [if_neg (hu _ (by omega) (by omega))]; exact ⟨_, rfl, by omega, by omega⟩
      · rw [if_neg (hu _ (by omega) (by omega))]; exact ⟨_, rfl, by omega, by omega⟩
    · simp only [hc, if_false]
      split
      · rw [if_neg (hu _ (by omega) (by omega))]; exact ⟨_, rfl, by omega, by omega⟩
      · rw [if_neg (hu _ (by omega) (by omega))]; exact ⟨_, rfl, by omega, by omega⟩

/-- The arrays are as large as the set believes. -/
def aux_io_fits (s : PollSet) : Prop := s.items.length ≤ s.max ∧ s.max ≤ s.setCap ∧ s.max ≤ s.connCap

theorem aux_io_poll_add (s : PollSet) (rlim : Option Nat) (a b : Bool) (fd c : Nat) (h : aux_io_fits s)
    (hr : ∀ r, rlim = some r → r ≤ 1073741824) :
    ∃ s', aux_io_fits s' ∧
      ((s.add rlim a b fd c = some (s', true) ∧ s'.items = s.items ++ [(fd, c)]) ∨
       (s.add rlim a b fd c = some (s', false) ∧ s'.items = s.items ∧
         (a = false ∨ b = false ∨ rlim = none ∨ ∃ r, rlim = some r ∧ r ≤ s.items.length))) := by
  obtain ⟨h1, h2, h3⟩ := h
  unfold PollSet.add
  split
  · next hl =>
    cases rlim with
    | none => exact ⟨s, ⟨h1, h2, h3⟩, .inr ⟨rfl, rfl, .inr (.inr (.inl rfl))⟩⟩
    | some r =>
      have hr' := hr r rfl
      simp only [hardSockLimit, aux_io_i32 r hr']
      rcases aux_io_next s.max r 8 (by omega) (by omega) (.inl rfl) with ⟨hle, e⟩ | ⟨n, e, g1, g2⟩
      · rw [e]
        refine ⟨s, ⟨h1, h2, h3⟩, .inr ⟨by simp, rfl, .inr (.inr (.inr ⟨r, rfl, by omega⟩))⟩⟩
      · rw [e]
        dsimp only
        rw [if_neg (by omega)]
        cases a with
        | false => exact ⟨s, ⟨h1, h2, h3⟩, .inr ⟨by simp, rfl, .inl rfl⟩⟩
        | true =>
          cases b with
          | false =>
            refine ⟨{ s with setCap := n.toNat }, ⟨h1, ?_, h3⟩, .inr ⟨by simp, rfl, .inr (.inl rfl)⟩⟩
            show s.max ≤ n.toNat; omega
          | true =>
            simp only [PollSet.store]
            refine ⟨{ s with setCap := n.toNat, connCap := n.toNat, max := n.toNat, items := s.items ++ [(fd, c)] }, ?_, .inl ⟨?_, rfl⟩⟩
            · refine ⟨?_, Nat.le_refl _, Nat.le_refl _⟩
              simp only [List.length_append, List.length_singleton]; omega
            · simp only [Bool.true_eq_false, if_false]
              rw [if_pos ⟨by omega, by omega⟩]
  · next hl =>
    refine ⟨{ s with items := s.items ++ [(fd, c)] }, ⟨?_, h2, h3⟩, .inl ⟨?_, rfl⟩⟩
    · simp only [List.length_append, List.length_singleton]; omega
    · unfold PollSet.store; rw [if_pos ⟨by omega, by omega⟩]

theorem aux_io_poll_run (ops : List IoOp) : ∀ (s : PollSet), aux_io_fits s → (∀ op ∈ ops, ioLimitSmall op) →
    ∃ r, s.run ops = some r ∧ aux_io_fits r.1 ∧ r.1.items = ioAdded s.items ops r.2 := by
  induction ops with
  | nil => intro s h _; exact ⟨(s, []), rfl, h, by simp [ioAdded]⟩
  | cons op ops ih =>
    intro s h hl
    have hl' : ∀ op ∈ ops, ioLimitSmall op := fun o ho => hl o (by simp [ho])
    have h0 := hl op (by simp)
    cases op with
    | clear =>
      obtain ⟨q, e, hf, hi⟩ := ih { s with items := [] } ⟨Nat.zero_le _, h.2⟩ hl'
      have hc : s.clear = some { s with items := [] } := by
        unfold PollSet.clear; rw [if_neg]; have := h.1; have := h.2.1; omega
      exact ⟨(q.1, true :: q.2), by simp [PollSet.run, PollSet.step, hc, e], hf, by simpa [ioAdded] using hi⟩
    | add r a b fd c =>
      obtain ⟨s', hf', hs⟩ := aux_io_poll_add s r a b fd c h (by
        intro x hx; subst hx; exact h0)
      obtain ⟨q, e, hf, hi⟩ := ih s' hf' hl'
      rcases hs with ⟨e1, e2⟩ | ⟨e1, e2, _⟩
      · exact ⟨(q.1, true :: q.2), by simp [PollSet.run, PollSet.step, e1, e], hf, by simp [ioAdded, hi, e2]⟩
      · exact ⟨(q.1, false :: q.2), by simp [PollSet.run, PollSet.step, e1, e], hf, by simp [ioAdded, hi, e2]⟩

theorem aux_io_create (limit : Int) : aux_io_fits (PollSet.create limit) :=
  ⟨Nat.zero_le _, Nat.le_refl _, Nat.le_refl _⟩

/-- poll: with limits of at most 2^30, which may change, and whatever allocations fail: no undefined behaviour; the set holds exactly
what was added with success since it was cleared, in order; a descriptor is refused only if the limit is reached or unknown, or
if memory is missing. Missing: larger limits. -/
theorem C74_poll_partial (limit : Int) (ops : List IoOp) (hl : ∀ op ∈ ops, ioLimitSmall op) :
    ∃ r, (PollSet.create limit).run ops = some r ∧ r.1.items = ioAdded [] ops r.2 ∧
      ∀ rlim a b fd c, ioLimitSmall (.add rlim a b fd c) → ∃ s' told, r.1.step (.add rlim a b fd c) = some (s', told) ∧
        (told = false → a = false ∨ b = false ∨ rlim = none ∨ ∃ l, rlim = some l ∧ l ≤ r.1.items.length) := by
  obtain ⟨r, e, hf, hi⟩ := aux_io_poll_run ops _ (aux_io_create limit) hl
  refine ⟨r, e, hi, fun rlim a b fd c hs => ?_⟩
  obtain ⟨s', _, h⟩ := aux_io_poll_add r.1 rlim a b fd c hf (by intro x hx; subst hx; exact hs)
  rcases h with ⟨e1, _⟩ | ⟨e1, _, h⟩
  · exact ⟨s', true, e1, by simp⟩
  · exact ⟨s', false, e1, fun _ => h⟩

/-- A small set that grows: the third descriptor makes it grow, the fourth one is refused, after clearing it is used again. -/
example : ((PollSet.create 2).run [.add (some 3) true true 10 0, .add (some 3) true true 11 1, .add (some 3) true true 12 2,
      .add (some 3) true true 13 3]) = some (⟨3, [(10, 0), (11, 1), (12, 2)], 3, 3⟩, [true, true, true, false]) ∧
    ((PollSet.create 2).run [.add (some 3) true true 10 0, .clear, .add (some 3) true true 12 2]) =
      some (⟨2, [(12, 2)], 2, 2⟩, [true, true, true]) := by decide

def aux_io_efits (s : EPollSet) : Prop := s.length ≤ s.max ∧ s.max = s.cap ∧ s.items.length ≤ s.length

theorem aux_io_estore (s : EPollSet) (fd c : Nat) (h : aux_io_efits s) (hl : s.length < s.max) : aux_io_efits (s.store fd c) := by
  obtain ⟨h1, h2, h3⟩ := h
  refine ⟨?_, h2, ?_⟩
  · show s.length + 1 ≤ s.max; omega
  · simp only [EPollSet.store]
    split
    · show s.items.length ≤ s.length + 1; omega
    · simp only [List.length_append, List.length_singleton]; show s.items.length + 1 ≤ s.length + 1; omega

theorem aux_io_epoll_add (s : EPollSet) (rlim : Option Nat) (a : Bool) (fd c : Nat) (h : aux_io_efits s)
    (hr : ∀ r, rlim = some r → r ≤ 1073741824) :
    ∃ s', aux_io_efits s' ∧
      ((s.add rlim a fd c = some (s', true) ∧ s'.length = s.length + 1 ∧
          s'.items = if s.items.any (·.1 == fd) then s.items else s.items ++ [(fd, c)]) ∨
       (s.add rlim a fd c = some (s', false) ∧ s' = s ∧
         (a = false ∨ rlim = none ∨ ∃ r, rlim = some r ∧ r ≤ s.length))) := by
  unfold EPollSet.add
  split
  · next hl =>
    cases rlim with
    | none => exact ⟨s, h, .inr ⟨rfl, rfl, .inr (.inl rfl)⟩⟩
    | some r =>
      have hr' := hr r rfl
      simp only [hardSockLimit, aux_io_i32 r hr']
      rcases aux_io_next s.max r 12 (by omega) (by omega) (.inr rfl) with ⟨hle, e⟩ | ⟨n, e, g1, g2⟩
      · rw [e]; exact ⟨s, h, .inr ⟨by simp, rfl, .inr (.inr ⟨r, rfl, by omega⟩)⟩⟩
      · rw [e]
        dsimp only
        rw [if_neg (by omega)]
        cases a with
        | false => exact ⟨s, h, .inr ⟨by simp, rfl, .inl rfl⟩⟩
        | true =>
          have hf : aux_io_efits { s with cap := n.toNat, max := n.toNat } := ⟨by show s.length ≤ n.toNat; omega, rfl, h.2.2⟩
          exact ⟨_, aux_io_estore _ fd c hf (by show s.length < n.toNat; omega), .inl ⟨by simp, rfl, rfl⟩⟩
  · next hl => exact ⟨_, aux_io_estore s fd c h (by have := h.1; omega), .inl ⟨rfl, rfl, rfl⟩⟩

theorem aux_io_first_append (l : List (Nat × Nat)) (i : Nat × Nat) : ioFirstByFd (l ++ [i]) =
    if (ioFirstByFd l).any (·.1 == i.1) then ioFirstByFd l else ioFirstByFd l ++ [i] := by
  unfold ioFirstByFd
  rw [List.foldl_append]
  rfl

theorem aux_io_epoll_run (ops : List IoOp) : ∀ (s : EPollSet) (acc : List (Nat × Nat)), aux_io_efits s → s.items = ioFirstByFd acc →
    s.length = acc.length → (∀ op ∈ ops, ioLimitSmall op) →
    ∃ r, s.run ops = some r ∧ aux_io_efits r.1 ∧ r.1.items = ioFirstByFd (ioAdded acc ops r.2) ∧
      r.1.length = (ioAdded acc ops r.2).length := by
  induction ops with
  | nil => intro s acc h hi hn _; exact ⟨(s, []), rfl, h, by simpa [ioAdded] using hi, by simpa [ioAdded] using hn⟩
  | cons op ops ih =>
    intro s acc h hi hn hl
    have hl' : ∀ op ∈ ops, ioLimitSmall op := fun o ho => hl o (by simp [ho])
    have h0 := hl op (by simp)
    cases op with
    | clear =>
      obtain ⟨q, e, hf, hi, hn⟩ := ih s.clear [] ⟨Nat.zero_le _, h.2.1, Nat.zero_le _⟩ rfl rfl hl'
      exact ⟨(q.1, true :: q.2), by simp [EPollSet.run, EPollSet.step, e], hf, by simpa [ioAdded] using hi, by simpa [ioAdded] using hn⟩
    | add r a b fd c =>
      obtain ⟨s', hf', hs⟩ := aux_io_epoll_add s r a fd c h (by
        intro x hx; subst hx; exact h0)
      rcases hs with ⟨e1, e2, e3⟩ | ⟨e1, e2, _⟩
      · obtain ⟨q, e, hf, hi, hn⟩ := ih s' (acc ++ [(fd, c)]) hf' (by rw [e3, aux_io_first_append, hi]) (by simp [e2, hn]) hl'
        exact ⟨(q.1, true :: q.2), by simp [EPollSet.run, EPollSet.step, e1, e], hf, by simp [ioAdded, hi], by simp [ioAdded, hn]⟩
      · subst e2
        obtain ⟨q, e, hf, hi, hn⟩ := ih s' acc hf' hi hn hl'
        exact ⟨(q.1, false :: q.2), by simp [EPollSet.run, EPollSet.step, e1, e], hf, by simp [ioAdded, hi], by simp [ioAdded, hn]⟩

/-- epoll: as C74_poll_partial; of several connections with one descriptor the first one is watched. Whatever is ready is written
inside the memory allocated and handed to the dispatch function: all of the set that can be read (or written), and nothing else. -/
theorem C74_epoll_partial (limit : Int) (ops : List IoOp) (hl : ∀ op ∈ ops, ioLimitSmall op) :
    ∃ r, (EPollSet.create limit).run ops = some r ∧ r.1.items = ioFirstByFd (ioAdded [] ops r.2) ∧
      (∀ rlim a b fd c, ioLimitSmall (.add rlim a b fd c) → ∃ s' told, r.1.step (.add rlim a b fd c) = some (s', told) ∧
        (told = false → a = false ∨ rlim = none ∨ ∃ l, rlim = some l ∧ l ≤ (ioAdded [] ops r.2).length)) ∧
      (∀ ready : Nat × Nat → IoReady, ∃ ev, r.1.wait ready = some ev ∧
        ∀ read, epollDispatch read ev ev.length r.1.length = r.1.items.filter fun i => ioOfInterest read (ready i)) := by
  simp only [← aux_io_wanted]
  obtain ⟨r, e, hf, hi, hn⟩ := aux_io_epoll_run ops (EPollSet.create limit) [] ⟨Nat.zero_le _, rfl, Nat.zero_le _⟩ rfl rfl hl
  refine ⟨r, e, hi, fun rlim a b fd c hs => ?_, fun ready => ?_⟩
  · obtain ⟨s', _, h⟩ := aux_io_epoll_add r.1 rlim a fd c hf (by intro x hx; subst hx; exact hs)
    rcases h with ⟨e1, _⟩ | ⟨e1, _, h⟩
    · exact ⟨s', true, e1, by simp⟩
    · exact ⟨s', false, e1, fun _ => by rw [← hn]; exact h⟩
  · obtain ⟨h1, h2, h3⟩ := hf
    have hlen : ((r.1.items.map fun i => (i, ready i)).filter fun e => e.2.inp || e.2.pri || e.2.out || e.2.other).length ≤ r.1.length :=
      Nat.le_trans (List.length_filter_le _ _) (by simpa using h3)
    unfold EPollSet.wait
    dsimp only
    rw [List.take_of_length_le hlen, if_neg (by omega)]
    refine ⟨_, rfl, fun read => ?_⟩
    unfold epollDispatch
    rw [List.take_length, List.take_of_length_le hlen, List.filter_filter, List.filter_map, List.map_map]
    have : (fun e : (Nat × Nat) × IoReady => e.1) ∘ (fun i => (i, ready i)) = id := rfl
    rw [show (Prod.fst ∘ fun i => (i, ready i)) = (id : Nat × Nat → Nat × Nat) from rfl, List.map_id]
    apply List.filter_congr
    intro i _
    simp only [Function.comp, IoReady.wanted]
    cases read <;> simp <;> cases (ready i).inp <;> cases (ready i).pri <;> cases (ready i).out <;> simp

/-- poll: when the kernel reports as many descriptors as have something, all of the set that can be read (or written) are handed to the
dispatch function, in order, and nothing else. -/
theorem C74_poll_serves (read : Bool) (l : List ((Nat × Nat) × IoReady)) :
    pollDispatch read l (ioChanged l) = (l.filter fun e => ioOfInterest read e.2).map (·.1) := by
  simp only [← aux_io_wanted]
  have key : ∀ (l : List ((Nat × Nat) × IoReady)) (left : Nat), (l.countP fun e => e.2.wanted read) ≤ left →
      pollDispatch read l left = (l.filter fun e => e.2.wanted read).map (·.1) := by
    intro l
    induction l with
    | nil => intro left _; simp [pollDispatch]
    | cons x l ih =>
      intro left h
      obtain ⟨i, r⟩ := x
      simp only [pollDispatch]
      cases hw : r.wanted read with
      | true =>
        rw [List.countP_cons_of_pos (by simpa using hw)] at h
        rw [if_neg (by omega), List.filter_cons_of_pos (by simpa using hw), ih (left - 1) (by omega)]
        simp
      | false =>
        rw [List.countP_cons_of_neg (by simp [hw])] at h
        rw [List.filter_cons_of_neg (by simp [hw])]
        split
        · next h0 =>
          have : l.filter (fun e => e.2.wanted read) = [] := by
            rw [← List.length_eq_zero_iff, ← List.countP_eq_length_filter]; omega
          rw [this]; rfl
        · simpa using ih left h
  apply key
  unfold ioChanged
  apply List.countP_mono_left
  intro e _ h
  simp only [IoReady.wanted] at h
  cases read <;> simp at h ⊢ <;> grind

example : pollDispatch true [((10, 0), ⟨false, false, false, true⟩), ((11, 1), ⟨true, false, false, false⟩),
      ((12, 2), ⟨false, true, true, false⟩)] 3 = [(11, 1), (12, 2)] := by decide

theorem aux_io_fill (rlim : Option Nat) (k : Nat) : ∀ s : PollSet, aux_io_fits s → s.items.length + k ≤ s.max →
    ∃ s', s.run (List.replicate k (.add rlim true true 0 0)) = some (s', List.replicate k true) ∧ aux_io_fits s' ∧
      s'.max = s.max ∧ s'.items.length = s.items.length + k := by
  induction k with
  | zero => intro s h _; exact ⟨s, rfl, h, rfl, rfl⟩
  | succ k ih =>
    intro s h hk
    have hs : s.step (.add rlim true true 0 0) = some ({ s with items := s.items ++ [(0, 0)] }, true) := by
      simp only [PollSet.step, PollSet.add]
      rw [if_neg (by omega)]
      unfold PollSet.store
      rw [if_pos ⟨by have := h.2.1; omega, by have := h.2.2; omega⟩]
    have h' : aux_io_fits { s with items := s.items ++ [(0, 0)] } := by
      refine ⟨?_, h.2⟩
      simp only [List.length_append, List.length_singleton]; omega
    obtain ⟨s', e, g1, g2, g3⟩ := ih { s with items := s.items ++ [(0, 0)] } h' (by
      simp only [List.length_append, List.length_singleton]; omega)
    refine ⟨s', ?_, g1, g2, ?_⟩
    · simp [List.replicate_succ, PollSet.run, hs, e]
    · rw [g3]; simp only [List.length_append, List.length_singleton]; omega

theorem aux_io_run_append (a b : List IoOp) : ∀ s : PollSet, s.run (a ++ b) =
    match s.run a with
    | none => none
    | some r => match r.1.run b with
      | none => none
      | some q => some (q.1, r.2 ++ q.2) := by
  induction a with
  | nil => intro s; simp only [List.nil_append, PollSet.run]; cases s.run b <;> simp
  | cons op a ih =>
    intro s
    simp only [List.cons_append, PollSet.run]
    cases s.step op with
    | none => rfl
    | some r =>
      dsimp only
      rw [ih]
      cases r.1.run a with
      | none => rfl
      | some q =>
        dsimp only
        cases q.1.run b <;> simp

theorem aux_io_full (s : PollSet) (rlim : Option Nat) (L : Int) (h0 : hardSockLimit rlim = some L) (h : ioNextSize s.max L 8 = some (s.max:Int))
    (hl : s.items.length = s.max) (a b : Bool) (fd c : Nat) : s.add rlim a b fd c = some (s, false) := by
  unfold PollSet.add
  rw [if_pos hl, h0]
  dsimp only
  rw [h]
  exact if_pos rfl

theorem aux_io_full2 (s : PollSet) (rlim : Option Nat) (L : Int) (h0 : hardSockLimit rlim = some L) (h : ioNextSize s.max L 8 = none)
    (hl : s.items.length = s.max) (a b : Bool) (fd c : Nat) : s.add rlim a b fd c = none := by
  unfold PollSet.add
  rw [if_pos hl, h0]
  dsimp only
  rw [h]

theorem aux_io_limit (r : Nat) : hardSockLimit (some r) = some (i32 (r : Int)) := by unfold hardSockLimit; rfl

theorem aux_io_grow (s : PollSet) (rlim : Option Nat) (L : Int) (n : Nat) (h0 : hardSockLimit rlim = some L)
    (h : ioNextSize s.max L 8 = some (n : Int)) (hl : s.items.length = s.max) (hn : s.max < n) (fd c : Nat) :
    s.add rlim true true fd c = some (⟨n, s.items ++ [(fd, c)], n, n⟩, true) := by
  unfold PollSet.add
  rw [if_pos hl, h0]
  dsimp only
  rw [h]
  dsimp only
  rw [if_neg (by omega)]
  simp only [Bool.true_eq_false, if_false, PollSet.store, Int.toNat_natCast]
  rw [if_pos ⟨by omega, by omega⟩]

theorem aux_io_unlimited (limit n : Nat) (h : i32 limit ≤ 0) (hn : n = 4096) :
    ∃ r, (PollSet.create (i32 limit)).run (List.replicate n (.add (some limit) true true 0 0)) = some r ∧ r.1.items.length = n ∧
      ∀ fd c, r.1.step (.add (some limit) true true fd c) = some (r.1, false) := by
  have hm : (PollSet.create (i32 limit)).max = n := by simp [PollSet.create, ioFirstSize, h, hn]
  have h0 : (PollSet.create (i32 limit)).items.length = 0 := rfl
  obtain ⟨s', e, g1, g2, g3⟩ := aux_io_fill (some limit) n (PollSet.create (i32 limit)) (aux_io_create _) (by omega)
  refine ⟨_, e, by rw [g3]; omega, fun fd c => ?_⟩
  have hl : s'.items.length = s'.max := by rw [g3, g2, hm]; omega
  have : ioNextSize s'.max (i32 limit) 8 = some (s'.max : Int) := by
    unfold ioNextSize; rw [if_pos (by omega)]
  unfold PollSet.step
  exact aux_io_full s' _ _ (aux_io_limit limit) this hl true true fd c

/-- Where the system has no limit, or one of 2^31 and more that the conversion makes negative, only 4096 descriptors are taken. -/
theorem C74_unlimited (limit : Nat) (h : i32 limit ≤ 0) :
    ∃ r, (PollSet.create (i32 limit)).run (List.replicate 4096 (.add (some limit) true true 0 0)) = some r ∧ r.1.items.length = 4096 ∧
      ∀ fd c, r.1.step (.add (some limit) true true fd c) = some (r.1, false) := aux_io_unlimited limit 4096 h rfl

example : i32 18446744073709551615 ≤ 0 := by decide

theorem aux_io_max : hardSockLimit (some 2147483647) = some 2147483647 := by decide

theorem aux_io_double (cur hard : Int) (h0 : 0 < cur) (h1 : cur * 2 ≤ hard) (h2 : hard ≤ 2147483647) :
    ioNextSize cur hard 8 = some (cur * 2) := by
  unfold ioNextSize
  rw [if_neg (by omega), if_neg (by omega)]
  have hu : ¬ u64 (cur * 2) > 18446744073709551615 / 8 := by
    unfold u64; rw [Int.emod_eq_of_lt (by omega) (by omega)]; omega
  dsimp only
  have e : (if cur * 2 ≤ cur ∨ cur * 2 > hard then hard else cur * 2) = cur * 2 := if_neg (by omega)
  simp only [show cur > 0 from h0, if_true]
  rw [e, if_neg hu]

theorem aux_io_grown (k : Nat) (hk : k ≤ 18) : ∃ ops r, (∀ op ∈ ops, op = IoOp.add (some 2147483647) true true 0 0) ∧ (PollSet.create 2147483647).run ops = some r ∧ aux_io_fits r.1 ∧
    r.1.max = 4096 * 2 ^ k ∧ r.1.items.length = 4096 * 2 ^ k := by
  induction k with
  | zero =>
    obtain ⟨s', e, g1, g2, g3⟩ := aux_io_fill (some 2147483647) 4096 (PollSet.create 2147483647) (aux_io_create _) (by
      simp [PollSet.create, ioFirstSize])
    exact ⟨_, _, fun op ho => (List.mem_replicate.1 ho).2, e, g1, by rw [g2]; simp [PollSet.create, ioFirstSize],
      by rw [g3]; simp [PollSet.create]⟩
  | succ k ih =>
    obtain ⟨ops, r, ho, e, g1, g2, g3⟩ := ih (by omega)
    have hp : 2 ^ k ≤ 2 ^ 17 := Nat.pow_le_pow_right (by decide) (by omega)
    have hp1 : 0 < 2 ^ k := Nat.pow_pos (by decide)
    have hn : ioNextSize r.1.max 2147483647 8 = some ((2 * r.1.max : Nat) : Int) := by
      rw [aux_io_double _ _ (by omega) (by omega) (by omega)]
      congr 1; omega
    have hs : r.1.step (.add (some 2147483647) true true 0 0) =
        some (⟨2 * r.1.max, r.1.items ++ [(0, 0)], 2 * r.1.max, 2 * r.1.max⟩, true) := by
      unfold PollSet.step
      exact aux_io_grow r.1 _ _ _ aux_io_max hn (g3.trans g2.symm) (by omega) 0 0
    obtain ⟨s', e', k1, k2, k3⟩ := aux_io_fill (some 2147483647) (2 * r.1.max - (r.1.items.length + 1))
      ⟨2 * r.1.max, r.1.items ++ [(0, 0)], 2 * r.1.max, 2 * r.1.max⟩
      ⟨by simp only [List.length_append, List.length_singleton]; omega, Nat.le_refl _, Nat.le_refl _⟩
      (by simp only [List.length_append, List.length_singleton]; omega)
    refine ⟨ops ++ (.add (some 2147483647) true true 0 0 :: List.replicate (2 * r.1.max - (r.1.items.length + 1)) (.add (some 2147483647) true true 0 0)),
      (s', r.2 ++ (true :: List.replicate (2 * r.1.max - (r.1.items.length + 1)) true)), ?_, ?_, k1, ?_, ?_⟩
    · intro op hop
      rcases List.mem_append.1 hop with hop | hop
      · exact ho op hop
      · rcases List.mem_cons.1 hop with hop | hop
        · exact hop
        · exact (List.mem_replicate.1 hop).2
    · rw [aux_io_run_append, e]
      simp only [PollSet.run, hs, e']
    · show s'.max = _
      rw [k2, Nat.pow_succ]; show 2 * r.1.max = _; omega
    · show s'.items.length = _
      rw [k3, Nat.pow_succ]; simp only [List.length_append, List.length_singleton]; omega

/-- With a limit above 2^30 the computation of the next size overflows when that many descriptors are in the set. -/
theorem C74_overflow : ∃ ops, (∀ op ∈ ops, op = IoOp.add (some 2147483647) true true 0 0) ∧
    (PollSet.create 2147483647).run ops = none := by
  obtain ⟨ops, r, ho, e, g1, g2, g3⟩ := aux_io_grown 18 (by omega)
  refine ⟨ops ++ [.add (some 2147483647) true true 0 0], fun op hop => ?_, ?_⟩
  · rcases List.mem_append.1 hop with hop | hop
    · exact ho op hop
    · simpa using hop
  rw [aux_io_run_append, e]
  have hn : ioNextSize r.1.max 2147483647 8 = none := by
    rw [g2]; unfold ioNextSize; rw [if_neg (by omega), if_pos (by omega)]
  have : r.1.step (.add (some 2147483647) true true 0 0) = none := by
    unfold PollSet.step
    exact aux_io_full2 r.1 _ _ aux_io_max hn (g3.trans g2.symm) true true 0 0
  simp only [PollSet.run, this]

theorem C74_statement_false : ¬ C74_statement := by
  intro h
  have hl : ∀ op ∈ List.replicate 4096 (IoOp.add (some 18446744073709551615) true true 0 0), ioLimitIs (some 18446744073709551615) op := by
    intro op ho; rw [(List.mem_replicate.1 ho).2]; rfl
  obtain ⟨⟨r, e, _, hr⟩, -⟩ := h 18446744073709551615 _ hl
  obtain ⟨r', e', g1, g2⟩ := C74_unlimited 18446744073709551615 (by decide)
  obtain rfl : r' = r := Option.some.inj (e'.symm.trans e)
  have := hr 0 0 r'.1 (g2 0 0)
  rw [g1] at this
  omega

/-- C75, full: in a round with select every listener that is ready is served, as with the other mechanisms, and every connection
that is ready is read, unless it was closed meanwhile; nothing else is served or read, and nothing twice. False of the code. -/
def C75_statement : Prop :=
  ∀ closes listeners conns closed, let r := selectRound closes listeners conns closed (selectChanged listeners conns)
    (∀ l ∈ listeners, l.ready = true → l.id ∉ r.2 → dispatchListener l ∈ r.1) ∧
    (∀ c ∈ conns, c.ready = true → c.id ∉ r.2 → .process c.id ∈ r.1) ∧
    (selectServed r.1).Sublist ((listeners.filter (·.ready)).map dispatchListener) ∧
    (selectRead r.1).Sublist ((conns.filter (·.ready)).map (·.id))

theorem aux_io_read_append (a b : List SelectEvent) : selectRead (a ++ b) = selectRead a ++ selectRead b := by
  induction a with
  | nil => rfl
  | cons e a ih => cases e <;> simp [selectRead, ih]

theorem aux_io_served_append (a b : List SelectEvent) : selectServed (a ++ b) = selectServed a ++ selectServed b := by
  induction a with
  | nil => rfl
  | cons e a ih => cases e <;> simp [selectServed, ih]

theorem aux_io_lis_closed (closes : Nat → List Nat) (changed : Int) (ls : List SelectItem) : ∀ closed checked,
    closed ⊆ (checkListeners closes changed ls closed checked).2.1 := by
  induction ls with
  | nil => intro closed checked; simp [checkListeners]
  | cons l ls ih =>
    intro closed checked
    simp only [checkListeners]
    split
    · exact ih _ _
    · split
      · split
        · exact fun x hx => List.mem_append_left _ hx
        · exact fun x hx => ih _ _ (List.mem_append_left _ hx)
      · split
        · exact fun x hx => hx
        · exact ih _ _

theorem aux_io_conn_closed (closes : Nat → List Nat) (changed : Int) (cs : List SelectItem) : ∀ closed checked,
    closed ⊆ (checkConns closes changed cs closed checked).2 := by
  induction cs with
  | nil => intro closed checked; simp [checkConns]
  | cons c cs ih =>
    intro closed checked
    simp only [checkConns]
    split
    · exact fun x hx => hx
    · split
      · exact ih _ _
      · split
        · exact fun x hx => ih _ _ (List.mem_append_left _ hx)
        · exact ih _ _

theorem aux_io_lis (closes : Nat → List Nat) (changed : Int) (ls : List SelectItem) : ∀ closed (checked : Nat),
    (∀ l ∈ ls, l.id ∉ (checkListeners closes changed ls closed checked).2.1) →
    (checked : Int) + (ls.countP (·.ready) : Nat) ≤ changed →
    (checkListeners closes changed ls closed checked).1 = (ls.filter (·.ready)).map (fun l => .accept l.id) ∧
    (checkListeners closes changed ls closed checked).2.2 = changed - checked - (ls.countP (·.ready) : Nat) := by
  induction ls with
  | nil => intro closed checked _ _; simp [checkListeners]
  | cons l ls ih =>
    intro closed checked hc hn
    have h0 : closed.contains l.id = false := by
      have := hc l (by simp)
      cases h : closed.contains l.id with
      | false => rfl
      | true => exact absurd (aux_io_lis_closed closes changed (l :: ls) closed checked (by simpa using h)) this
    have none_left : ls.countP (·.ready) = 0 → ls.filter (·.ready) = [] := by
      intro h; rw [← List.length_eq_zero_iff, ← List.countP_eq_length_filter]; exact h
    simp only [checkListeners, h0, Bool.false_eq_true, if_false] at hc ⊢
    cases hr : l.ready with
    | true =>
      rw [List.countP_cons_of_pos (by simpa using hr)] at hn ⊢
      rw [List.filter_cons_of_pos (by simpa using hr)]
      simp only [hr, if_true] at hc ⊢
      split
      · next he =>
        have := none_left (by omega)
        simp [this]; omega
      · next he =>
        rw [if_neg he] at hc
        obtain ⟨e1, e2⟩ := ih (closed ++ closes l.id) (checked + 1) (fun x hx => hc x (by simp [hx])) (by omega)
        simp only [e1, e2, List.map_cons, true_and]; omega
    | false =>
      rw [List.countP_cons_of_neg (by simp [hr])] at hn ⊢
      rw [List.filter_cons_of_neg (by simp [hr])]
      simp only [hr, Bool.false_eq_true, if_false] at hc ⊢
      split
      · next he =>
        have := none_left (by omega)
        simp [this]; omega
      · next he =>
        rw [if_neg he] at hc
        exact ih closed checked (fun x hx => hc x (by simp [hx])) hn

theorem aux_io_conns (closes : Nat → List Nat) (changed : Int) (cs : List SelectItem) : ∀ closed (checked : Nat),
    selectServed (checkConns closes changed cs closed checked).1 = [] ∧
    (selectRead (checkConns closes changed cs closed checked).1).Sublist ((cs.filter (·.ready)).map (·.id)) ∧
    ((checked : Int) + (cs.countP (·.ready) : Nat) ≤ changed →
      ∀ c ∈ cs, c.ready = true → c.id ∉ (checkConns closes changed cs closed checked).2 →
        .process c.id ∈ (checkConns closes changed cs closed checked).1) := by
  induction cs with
  | nil => intro closed checked; simp [checkConns, selectServed, selectRead]
  | cons c cs ih =>
    intro closed checked
    simp only [checkConns]
    split
    · next he =>
      refine ⟨rfl, by simp [selectRead], fun hn x hx hr => ?_⟩
      exfalso
      have : (c :: cs).countP (·.ready) = 0 := by omega
      rw [List.countP_eq_zero] at this
      exact this x hx hr
    · next he =>
      split
      · next hcl =>
        obtain ⟨g1, g2, g3⟩ := ih closed checked
        refine ⟨by simpa [selectServed] using g1, ?_, fun hn x hx hr hx2 => ?_⟩
        · simp only [selectRead]
          refine g2.trans (List.Sublist.map _ ?_)
          exact (List.sublist_cons_self c cs).filter _
        · have hle : cs.countP (·.ready) ≤ (c :: cs).countP (·.ready) := (List.sublist_cons_self c cs).countP_le
          rcases List.mem_cons.1 hx with rfl | hx
          · exact absurd (aux_io_conn_closed closes changed cs closed checked (by simpa using hcl)) hx2
          · exact List.mem_cons_of_mem _ (g3 (by omega) x hx hr hx2)
      · next hcl =>
        cases hr : c.ready with
        | true =>
          obtain ⟨g1, g2, g3⟩ := ih (closed ++ closes c.id) (checked + 1)
          simp only [if_true]
          refine ⟨by simpa [selectServed] using g1, ?_, fun hn x hx hxr hx2 => ?_⟩
          · rw [List.filter_cons_of_pos (by simpa using hr)]
            simp only [selectRead, List.map_cons]
            exact g2.cons₂ _
          · rw [List.countP_cons_of_pos (by simpa using hr)] at hn
            rcases List.mem_cons.1 hx with rfl | hx
            · simp
            · exact List.mem_cons_of_mem _ (g3 (by omega) x hx hxr hx2)
        | false =>
          obtain ⟨g1, g2, g3⟩ := ih closed checked
          simp only [Bool.false_eq_true, if_false]
          refine ⟨g1, by rw [List.filter_cons_of_neg (by simp [hr])]; exact g2, fun hn x hx hxr hx2 => ?_⟩
          rw [List.countP_cons_of_neg (by simp [hr])] at hn
          rcases List.mem_cons.1 hx with rfl | hx
          · rw [hr] at hxr; cases hxr
          · exact g3 hn x hx hxr hx2

/-- In a round in which no listener is closed: connections are accepted at every listener that is ready, once each, and every
connection that is ready and not closed meanwhile is read, none twice. Missing: rounds in which a listener is closed, and the
preread handlers of listeners. -/
theorem C75_round_partial (closes : Nat → List Nat) (listeners conns : List SelectItem) (closed : List Nat)
    (h : let r := selectRound closes listeners conns closed (selectChanged listeners conns); ∀ l ∈ listeners, l.id ∉ r.2) :
    let r := selectRound closes listeners conns closed (selectChanged listeners conns)
    selectServed r.1 = (listeners.filter (·.ready)).map (fun l => .accept l.id) ∧
    (∀ c ∈ conns, c.ready = true → c.id ∉ r.2 → .process c.id ∈ r.1) ∧
    (selectRead r.1).Sublist ((conns.filter (·.ready)).map (·.id)) := by
  dsimp only [selectRound] at h ⊢
  have hl := aux_io_lis closes (selectChanged listeners conns : Nat) listeners closed 0 (fun l hl hm =>
    h l hl (aux_io_conn_closed _ _ _ _ _ hm)) (by unfold selectChanged; omega)
  have hc := aux_io_conns closes (checkListeners closes (selectChanged listeners conns : Nat) listeners closed 0).2.2 conns
    (checkListeners closes (selectChanged listeners conns : Nat) listeners closed 0).2.1 0
  have hs : ∀ l : List SelectItem, selectServed (l.map fun l => SelectEvent.accept l.id) = l.map (fun l => SelectEvent.accept l.id) ∧
      selectRead (l.map fun l => SelectEvent.accept l.id) = [] := by
    intro l
    induction l with
    | nil => exact ⟨rfl, rfl⟩
    | cons x l ih => simp [selectServed, selectRead, ih.1, ih.2]
  refine ⟨?_, ?_, ?_⟩
  · rw [aux_io_served_append, hl.1, (hs _).1, hc.1, List.append_nil]
  · intro c hm hr hx
    exact List.mem_append_right _ (hc.2.2 (by rw [hl.2]; unfold selectChanged; omega) c hm hr hx)
  · rw [aux_io_read_append, hl.1, (hs _).2, List.nil_append]
    exact hc.2.1

/-- Two listeners and three connections; reading the first connection closes the third one. -/
example : selectRound (fun id => if id = 10 then [12] else []) [⟨1, true, false⟩, ⟨2, false, false⟩]
      [⟨10, true, false⟩, ⟨11, false, false⟩, ⟨12, true, false⟩, ⟨13, true, false⟩] [] 4 =
    ([.accept 1, .process 10, .release 12, .process 13], [12]) := by decide

/-- A listener closed by another thread is counted as if it were ready: a connection that is ready is not read. And the preread handler
of a listener is not called with select, as it is with the other mechanisms: a connection is accepted instead. -/
theorem C75_not_served :
    selectRound (fun _ => []) [⟨1, false, false⟩] [⟨10, true, false⟩] [1] 1 = ([.release 1], [1]) ∧
    selectRound (fun _ => []) [⟨1, true, true⟩] [] [] 1 = ([.accept 1], []) ∧ dispatchListener ⟨1, true, true⟩ = .preread 1 := by decide

theorem C75_statement_false : ¬ C75_statement := by
  intro h
  have := (h (fun _ => []) [⟨1, false, false⟩] [⟨10, true, false⟩] [1]).2.1 ⟨10, true, false⟩ (by decide) rfl (by decide)
  revert this; decide

end Verif.Props
