import Verif.Model.SockLimit
/-!
# C126: connections never take the last descriptor
-/
namespace Verif.Props
open Verif.Model

structure DlInv (s : Dl) : Prop where
  once : ∀ x : Nat, s.fds.count x ≤ 1
  fits : s.fds.length ≤ s.limit

theorem aux_dl_len (s : Dl) : s.fds.length = s.conns.length + s.others.length + s.fresh.length + s.doomed.length + 2 * s.probing.length := by
  simp only [Dl.fds, List.length_append, List.length_map]; omega

theorem aux_dl_count (s : Dl) (x : Nat) : s.fds.count x = s.conns.count x + s.others.count x + s.fresh.count x + s.doomed.count x +
    (s.probing.map Prod.fst).count x + (s.probing.map Prod.snd).count x := by
  simp only [Dl.fds, List.count_append]

theorem aux_dl_fst (l : List (Nat × Nat)) (p : Nat × Nat) (h : p ∈ l) (x : Nat) :
    (l.map Prod.fst).count x = ((l.erase p).map Prod.fst).count x + (if p.1 = x then 1 else 0) := by
  have h1 := ((List.perm_cons_erase h).map Prod.fst).count_eq x
  rw [h1]; simp [List.count_cons]

theorem aux_dl_snd (l : List (Nat × Nat)) (p : Nat × Nat) (h : p ∈ l) (x : Nat) :
    (l.map Prod.snd).count x = ((l.erase p).map Prod.snd).count x + (if p.2 = x then 1 else 0) := by
  have h1 := ((List.perm_cons_erase h).map Prod.snd).count_eq x
  rw [h1]; simp [List.count_cons]

theorem aux_dl_erase (l : List Nat) (a x : Nat) : (l.erase a).count x ≤ l.count x := (List.erase_sublist).count_le x

theorem aux_dl_eraseMem (l : List Nat) (a x : Nat) (h : a ∈ l) : l.count x = (l.erase a).count x + (if a = x then 1 else 0) := by
  rw [(List.perm_cons_erase h).count_eq x]; simp [List.count_cons]

theorem aux_dl_one (a x : Nat) : List.count x [a] = if a = x then 1 else 0 := by
  simp [List.count_cons]

theorem aux_dl_step (s : Dl) (op : DlOp) (h : DlInv s) : DlInv (s.step op) ∧ (s.step op).limit = s.limit := by
  have hlen := aux_dl_len s
  have hc := aux_dl_count s
  obtain ⟨h1, h2⟩ := h
  cases op with
  | take fd =>
    simp only [Dl.step]
    split
    · exact ⟨⟨h1, h2⟩, rfl⟩
    · split
      · exact ⟨⟨h1, h2⟩, rfl⟩
      · rename_i hm
        have h0 : s.fds.count fd = 0 := List.count_eq_zero.mpr hm
        refine ⟨⟨fun x => ?_, ?_⟩, rfl⟩
        · have := hc x; have := h1 x
          rw [aux_dl_count]; simp only [List.count_append, aux_dl_one]
          split
          · subst_vars; omega
          · omega
        · rw [aux_dl_len]; simp only [List.length_append, List.length_cons, List.length_nil]; omega
  | probe fd temp =>
    simp only [Dl.step]
    split
    · rename_i hf
      split
      · refine ⟨⟨fun x => ?_, ?_⟩, rfl⟩
        · have := hc x; have := h1 x; have := aux_dl_eraseMem s.fresh fd x hf
          rw [aux_dl_count]; simp only [List.count_append, aux_dl_one]; omega
        · have hp : 0 < s.fresh.length := List.length_pos_of_mem hf
          rw [aux_dl_len]; simp only [List.length_append, List.length_cons, List.length_nil, List.length_erase_of_mem hf]; omega
      · split
        · exact ⟨⟨h1, h2⟩, rfl⟩
        · rename_i hl hm
          have h0 : s.fds.count temp = 0 := List.count_eq_zero.mpr hm
          have hp : 0 < s.fresh.length := List.length_pos_of_mem hf
          refine ⟨⟨fun x => ?_, ?_⟩, rfl⟩
          · have := hc x; have := h1 x; have := aux_dl_eraseMem s.fresh fd x hf
            rw [aux_dl_count]
            simp only [List.map_append, List.map_cons, List.map_nil, List.count_append, aux_dl_one]
            by_cases ht : temp = x
            · subst ht; simp only [if_true]; omega
            · rw [if_neg ht]; omega
          · rw [aux_dl_len]; simp only [List.length_append, List.length_cons, List.length_nil, List.length_erase_of_mem hf]; omega
    · exact ⟨⟨h1, h2⟩, rfl⟩
  | keep fd temp =>
    simp only [Dl.step]
    split
    · rename_i hf
      have hp : 0 < s.probing.length := List.length_pos_of_mem hf
      refine ⟨⟨fun x => ?_, ?_⟩, rfl⟩
      · have := hc x; have := h1 x; have := aux_dl_fst s.probing _ hf x; have := aux_dl_snd s.probing _ hf x
        rw [aux_dl_count]; simp only [List.count_append, aux_dl_one]; simp only at *; omega
      · rw [aux_dl_len]; simp only [List.length_append, List.length_cons, List.length_nil, List.length_erase_of_mem hf]; omega
    · exact ⟨⟨h1, h2⟩, rfl⟩
  | drop fd =>
    refine ⟨⟨fun x => ?_, ?_⟩, rfl⟩
    · have := hc x; have := h1 x; have := aux_dl_erase s.doomed fd x
      rw [aux_dl_count]; simp only [Dl.step]; omega
    · have : (s.doomed.erase fd).length ≤ s.doomed.length := List.erase_sublist.length_le
      rw [aux_dl_len]; simp only [Dl.step]; omega
  | hang fd =>
    refine ⟨⟨fun x => ?_, ?_⟩, rfl⟩
    · have := hc x; have := h1 x; have := aux_dl_erase s.conns fd x
      rw [aux_dl_count]; simp only [Dl.step]; omega
    · have : (s.conns.erase fd).length ≤ s.conns.length := List.erase_sublist.length_le
      rw [aux_dl_len]; simp only [Dl.step]; omega
  | other fd =>
    simp only [Dl.step]
    split
    · exact ⟨⟨h1, h2⟩, rfl⟩
    · rename_i hm
      have h0 : s.fds.count fd = 0 := List.count_eq_zero.mpr (fun h => hm (.inr h))
      refine ⟨⟨fun x => ?_, ?_⟩, rfl⟩
      · have := hc x; have := h1 x
        rw [aux_dl_count]; simp only [List.count_append, aux_dl_one]
        split
        · subst_vars; omega
        · omega
      · rw [aux_dl_len]; simp only [List.length_append, List.length_cons, List.length_nil]; omega
  | otherEnd fd =>
    refine ⟨⟨fun x => ?_, ?_⟩, rfl⟩
    · have := hc x; have := h1 x; have := aux_dl_erase s.others fd x
      rw [aux_dl_count]; simp only [Dl.step]; omega
    · have : (s.others.erase fd).length ≤ s.others.length := List.erase_sublist.length_le
      rw [aux_dl_len]; simp only [Dl.step]; omega

theorem aux_dl_run (ops : List DlOp) : ∀ s : Dl, DlInv s → DlInv (s.run ops) ∧ (s.run ops).limit = s.limit := by
  induction ops with
  | nil => intro s h; exact ⟨h, rfl⟩
  | cons op ops ih =>
    intro s h
    have h1 := aux_dl_step s op h
    have h2 := ih _ h1.1
    exact ⟨h2.1, h2.2.trans h1.2⟩

theorem aux_dl_init (limit : Nat) (others : List Nat) (h1 : others.Nodup) (h2 : others.length ≤ limit) : DlInv (Dl.init limit others) := by
  constructor
  · intro x; simp only [Dl.init, Dl.fds]; simp; exact List.nodup_iff_count.mp h1 x
  · simp only [Dl.init, Dl.fds]; simpa using h2

/-- **C126 (partial).** In every schedule, no descriptor belongs to two connections, or to a connection and something else:
closing a socket that was refused never closes another. -/
theorem C126_single_partial (limit : Nat) (others : List Nat) (h1 : others.Nodup) (h2 : others.length ≤ limit) (ops : List DlOp) :
    ((Dl.init limit others).run ops).conns.Nodup ∧
    (∀ fd ∈ ((Dl.init limit others).run ops).conns, fd ∉ ((Dl.init limit others).run ops).others ∧
      fd ∉ ((Dl.init limit others).run ops).fresh ∧ fd ∉ ((Dl.init limit others).run ops).doomed ∧
      ∀ p ∈ ((Dl.init limit others).run ops).probing, p.1 ≠ fd ∧ p.2 ≠ fd) := by
  have h := (aux_dl_run ops _ (aux_dl_init limit others h1 h2)).1
  generalize (Dl.init limit others).run ops = s at *
  have hc := aux_dl_count s
  refine ⟨List.nodup_iff_count.mpr fun x => by have := hc x; have := h.once x; omega, fun fd hfd => ?_⟩
  have h0 : 0 < s.conns.count fd := List.count_pos_iff.mpr hfd
  have hx := hc fd
  have hy := h.once fd
  refine ⟨fun hm => ?_, fun hm => ?_, fun hm => ?_, fun p hp => ⟨fun e => ?_, fun e => ?_⟩⟩
  · have := List.count_pos_iff.mpr hm; omega
  · have := List.count_pos_iff.mpr hm; omega
  · have := List.count_pos_iff.mpr hm; omega
  · have : 0 < (s.probing.map Prod.fst).count fd := List.count_pos_iff.mpr (List.mem_map.mpr ⟨p, hp, e⟩); omega
  · have : 0 < (s.probing.map Prod.snd).count fd := List.count_pos_iff.mpr (List.mem_map.mpr ⟨p, hp, e⟩); omega

/-- **C126 (partial).** In every schedule of any number of threads: if only sockets that are checked are opened, connections never
take the last descriptor; so when no check is going on the next socket can be accepted. -/
theorem C126_last_partial (limit : Nat) (others : List Nat) (h1 : others.Nodup) (h2 : others.length < limit) (ops : List DlOp)
    (h3 : ∀ fd, .other fd ∉ ops) :
    ((Dl.init limit others).run ops).conns.length + ((Dl.init limit others).run ops).others.length < limit ∧
    (((Dl.init limit others).run ops).fresh = [] → ((Dl.init limit others).run ops).doomed = [] → ((Dl.init limit others).run ops).probing = [] → ∀ fd,
      fd ∉ ((Dl.init limit others).run ops).conns → fd ∉ ((Dl.init limit others).run ops).others →
      ((Dl.init limit others).run (ops ++ [.take fd])).fresh = [fd]) := by
  have key : ∀ (ops : List DlOp) (s : Dl), DlInv s → (∀ fd, .other fd ∉ ops) → s.conns.length + s.others.length < s.limit →
      (s.run ops).conns.length + (s.run ops).others.length < s.limit := by
    intro ops
    induction ops with
    | nil => intro s _ _ h; exact h
    | cons op ops ih =>
      intro s hi hn h
      have hs := aux_dl_step s op hi
      have hlen := aux_dl_len s
      have hfit := hi.fits
      have := ih (s.step op) hs.1 (fun fd hm => hn fd (by simp [hm])) (by
        rw [hs.2]
        cases op with
        | take fd => simp only [Dl.step]; split <;> first | exact h | (split <;> exact h)
        | probe fd temp =>
          simp only [Dl.step]
          split
          · split
            · exact h
            · split <;> exact h
          · exact h
        | keep fd temp =>
          simp only [Dl.step]
          split
          · rename_i hf
            have hp : 0 < s.probing.length := List.length_pos_of_mem hf
            simp only [List.length_append, List.length_cons, List.length_nil]; omega
          · exact h
        | drop fd => exact h
        | hang fd =>
          have : (s.conns.erase fd).length ≤ s.conns.length := List.erase_sublist.length_le
          simp only [Dl.step]; omega
        | other fd => exact absurd (by simp) (hn fd)
        | otherEnd fd =>
          have : (s.others.erase fd).length ≤ s.others.length := List.erase_sublist.length_le
          simp only [Dl.step]; omega)
      rw [hs.2] at this
      exact this
  have hinit := aux_dl_init limit others h1 (by omega)
  have hk := key ops _ hinit h3 (by simpa [Dl.init] using h2)
  have hr := aux_dl_run ops _ hinit
  refine ⟨hk, fun e1 e3 e2 fd hc ho => ?_⟩
  have e : (Dl.init limit others).run (ops ++ [.take fd]) = ((Dl.init limit others).run ops).step (.take fd) := by simp [Dl.run]
  rw [e]
  have hlim : ((Dl.init limit others).run ops).limit = limit := hr.2
  have hil : (Dl.init limit others).limit = limit := rfl
  rw [hil] at hk
  generalize (Dl.init limit others).run ops = s at *
  have hlen := aux_dl_len s
  simp only [e1, e2, e3, List.length_nil] at hlen
  simp only [Dl.step]
  rw [if_neg (by omega), if_neg (by simp [Dl.fds, e1, e2, e3, hc, ho])]
  simp [e1]

example : ((Dl.init 5 [0, 1, 2]).run [.take 3, .probe 3 4, .keep 3 4, .take 4, .probe 4 5, .drop 4]).conns = [3] ∧
    ((Dl.init 5 [0, 1, 2]).run [.take 3, .probe 3 4, .keep 3 4, .take 4, .probe 4 5, .drop 4]).refused = [4] ∧
    ((Dl.init 5 [0, 1, 2]).run [.take 3, .probe 3 4, .keep 3 4, .take 4, .probe 4 5, .drop 4]).fresh = [] := by decide +kernel

/-- **C126 (partial).** Whatever else is opened, a socket is kept only if a descriptor is free right then; and it is refused only if
none is. -/
theorem C126_room_partial (limit : Nat) (others : List Nat) (h1 : others.Nodup) (h2 : others.length ≤ limit) (ops : List DlOp) (op : DlOp) :
    (((Dl.init limit others).run (ops ++ [op])).conns.length > ((Dl.init limit others).run ops).conns.length →
      ((Dl.init limit others).run (ops ++ [op])).fds.length < limit) ∧
    (((Dl.init limit others).run (ops ++ [op])).refused ≠ ((Dl.init limit others).run ops).refused →
      ((Dl.init limit others).run ops).fds.length = limit) := by
  have hr := aux_dl_run ops _ (aux_dl_init limit others h1 h2)
  have e : (Dl.init limit others).run (ops ++ [op]) = ((Dl.init limit others).run ops).step op := by simp [Dl.run]
  rw [e]
  have hlim : ((Dl.init limit others).run ops).limit = limit := hr.2
  have hfit := hr.1.fits
  generalize (Dl.init limit others).run ops = s at *
  have hlen := aux_dl_len s
  have hlen' := aux_dl_len (s.step op)
  cases op with
  | take fd => simp only [Dl.step] at *; grind
  | probe fd temp =>
    simp only [Dl.step] at hlen' ⊢
    split at hlen'
    · rename_i hf
      rw [if_pos hf]
      have hp : 0 < s.fresh.length := List.length_pos_of_mem hf
      split at hlen'
      · rename_i hl
        rw [if_pos hl]
        exact ⟨fun h => absurd h (Nat.lt_irrefl _), fun _ => by omega⟩
      · rename_i hl
        rw [if_neg hl]
        split <;> exact ⟨fun h => absurd h (Nat.lt_irrefl _), fun h => absurd rfl h⟩
    · rename_i hf
      rw [if_neg hf]
      exact ⟨fun h => absurd h (Nat.lt_irrefl _), fun h => absurd rfl h⟩
  | keep fd temp =>
    simp only [Dl.step] at hlen' ⊢
    split at hlen'
    · rename_i hf
      rw [if_pos hf]
      have hp : 0 < s.probing.length := List.length_pos_of_mem hf
      simp only [List.length_append, List.length_cons, List.length_nil, List.length_erase_of_mem hf] at hlen'
      exact ⟨fun _ => by omega, fun h => absurd rfl h⟩
    · rename_i hf
      rw [if_neg hf]
      exact ⟨fun h => absurd h (Nat.lt_irrefl _), fun h => absurd rfl h⟩
  | drop fd => exact ⟨fun h => absurd h (Nat.lt_irrefl _), fun h => absurd rfl h⟩
  | hang fd =>
    have : (s.conns.erase fd).length ≤ s.conns.length := List.erase_sublist.length_le
    simp only [Dl.step]
    exact ⟨fun h => absurd h (by omega), fun h => absurd rfl h⟩
  | other fd => simp only [Dl.step]; split <;> exact ⟨fun h => absurd h (Nat.lt_irrefl _), fun h => absurd rfl h⟩
  | otherEnd fd => simp only [Dl.step]; exact ⟨fun h => absurd h (Nat.lt_irrefl _), fun h => absurd rfl h⟩

/-- **C126 (partial).** Connections are closed only by their users: a check of another socket ends none. -/
theorem C126_kept_partial (s : Dl) (op : DlOp) (fd : Nat) (h : fd ∈ s.conns) (hop : op ≠ .hang fd) : fd ∈ (s.step op).conns := by
  cases op with
  | hang x =>
    simp only [Dl.step]
    exact (List.mem_erase_of_ne (by intro e; exact hop (by rw [e]))).mpr h
  | take x => simp only [Dl.step]; grind
  | probe x t => simp only [Dl.step]; grind
  | keep x t => simp only [Dl.step]; grind
  | other x => simp only [Dl.step]; grind
  | otherEnd x => exact h
  | drop x => exact h

example : 3 ∈ (((Dl.init 5 [0, 1, 2]).run [.take 3, .probe 3 4, .keep 3 4, .take 4, .probe 4 5, .drop 4])).conns := by decide +kernel

/-- **C126 violated.** Two sockets that are checked at the same time are both refused, although one of them could be kept. -/
theorem C126_both_refused :
    ((Dl.init 5 [0, 1, 2]).run [.take 3, .take 4, .probe 3 5, .probe 4 5, .drop 3, .drop 4]).refused = [3, 4] ∧
    ((Dl.init 5 [0, 1, 2]).run [.take 3, .take 4, .probe 3 5, .probe 4 5, .drop 3, .drop 4]).conns = [] ∧
    ((Dl.init 5 [0, 1, 2]).run [.take 3, .probe 3 4, .keep 3 4, .take 4, .probe 4 5, .drop 4]).conns = [3] := by decide +kernel

/-- **C126**, part: a socket that was refused is closed, and nothing else: the descriptor is given back to the system, and no other one. -/
theorem C126_refused_partial (limit : Nat) (others : List Nat) (h1 : others.Nodup) (h2 : others.length ≤ limit) (ops : List DlOp) (fd : Nat)
    (h3 : fd ∈ ((Dl.init limit others).run ops).doomed) :
    fd ∉ ((Dl.init limit others).run (ops ++ [.drop fd])).fds ∧
    (∀ x, x ≠ fd → (x ∈ ((Dl.init limit others).run (ops ++ [.drop fd])).fds ↔ x ∈ ((Dl.init limit others).run ops).fds)) ∧
    ((Dl.init limit others).run (ops ++ [.drop fd])).fds.length < limit := by
  have hr := aux_dl_run ops _ (aux_dl_init limit others h1 h2)
  have e : (Dl.init limit others).run (ops ++ [.drop fd]) = ((Dl.init limit others).run ops).step (.drop fd) := by simp [Dl.run]
  rw [e]
  have hlim : ((Dl.init limit others).run ops).limit = limit := hr.2
  have hfit := hr.1.fits
  have honce := hr.1.once
  generalize (Dl.init limit others).run ops = s at *
  have hd : 0 < s.doomed.count fd := List.count_pos_iff.mpr h3
  have hc := aux_dl_count s fd
  have hc' := aux_dl_count (s.step (.drop fd)) fd
  have ho := honce fd
  have hlen := aux_dl_len s
  have hlen' := aux_dl_len (s.step (.drop fd))
  simp only [Dl.step] at hc' hlen' ⊢
  have he : (s.doomed.erase fd).count fd = s.doomed.count fd - 1 := by simp [List.count_erase_self]
  have hl : (s.doomed.erase fd).length = s.doomed.length - 1 := List.length_erase_of_mem h3
  have hp : 0 < s.doomed.length := List.length_pos_of_mem h3
  refine ⟨fun hm => ?_, fun x hx => ?_, ?_⟩
  · have := List.count_pos_iff.mpr hm
    omega
  · simp only [Dl.fds, List.mem_append, List.mem_erase_of_ne hx]
  · omega

example : 4 ∈ ((Dl.init 5 [0, 1, 2]).run [.take 3, .probe 3 4, .keep 3 4, .take 4, .probe 4 5]).doomed ∧
    4 ∉ ((Dl.init 5 [0, 1, 2]).run [.take 3, .probe 3 4, .keep 3 4, .take 4, .probe 4 5, .drop 4]).fds := by decide +kernel

/-- **C126 violated.** A descriptor that is not checked can be the last: then no socket can be accepted, nothing is taken from the
backlog, and the listener is found readable again at once, for ever. -/
theorem C126_spin (n : Nat) :
    ((Dl.init 5 [0, 1, 2]).run ([.take 3, .probe 3 4, .keep 3 4, .other 4] ++ List.replicate n (.take 4))).failed = n ∧
    ((Dl.init 5 [0, 1, 2]).run ([.take 3, .probe 3 4, .keep 3 4, .other 4] ++ List.replicate n (.take 4))).refused = [] := by
  have e : ∀ n k, (Dl.run ⟨5, [3], [0, 1, 2, 4], [], [], [], [], k⟩ (List.replicate n (.take 4))) = ⟨5, [3], [0, 1, 2, 4], [], [], [], [], k + n⟩ := by
    intro n
    induction n with
    | zero => intro k; rfl
    | succ n ih =>
      intro k
      have : Dl.run ⟨5, [3], [0, 1, 2, 4], [], [], [], [], k⟩ (List.replicate (n + 1) (.take 4)) =
        Dl.run ⟨5, [3], [0, 1, 2, 4], [], [], [], [], k + 1⟩ (List.replicate n (.take 4)) := rfl
      rw [this, ih]; congr 1; omega
  have e2 : ∀ l, (Dl.init 5 [0, 1, 2]).run ([.take 3, .probe 3 4, .keep 3 4, .other 4] ++ l) =
      Dl.run ⟨5, [3], [0, 1, 2, 4], [], [], [], [], 0⟩ l := by
    intro l; rfl
  rw [e2, e]; simp

/-- The full claim: a new socket is refused or cannot be taken only if the connections and other descriptors leave less than two. -/
def C126_statement : Prop := ∀ (limit : Nat) (others : List Nat) (ops : List DlOp) (op : DlOp), others.Nodup → others.length < limit →
  (∀ fd, .other fd ∉ ops) →
  ((Dl.init limit others).run (ops ++ [op])).refused ≠ ((Dl.init limit others).run ops).refused →
  limit ≤ ((Dl.init limit others).run ops).conns.length + ((Dl.init limit others).run ops).others.length + 1

theorem C126_statement_false : ¬ C126_statement := by
  intro h
  have := h 5 [0, 1, 2] [.take 3, .take 4] (.probe 3 5) (by decide) (by decide) (by simp) (by decide +kernel)
  revert this
  decide +kernel

end Verif.Props
