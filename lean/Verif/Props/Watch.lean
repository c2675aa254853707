import Verif.Spec.Watch
/-!
# C65 to C68: the loop of the reader thread
-/
namespace Verif.Props
open Verif.Model Verif.Spec

/-! ### General facts -/

theorem aux_wa_run_append (a b : List WatchOp) : ∀ (s t : Watch) (l : List WatchEvent), s.run (a ++ b) = some (t, l) ↔
    ∃ u l1 l2, s.run a = some (u, l1) ∧ u.run b = some (t, l2) ∧ l = l1 ++ l2 := by
  induction a with
  | nil =>
    intro s t l
    simp only [List.nil_append, Watch.run]
    constructor
    · intro h; exact ⟨s, [], l, rfl, h, rfl⟩
    · rintro ⟨u, l1, l2, h1, h2, rfl⟩
      simp only [Option.some.injEq, Prod.mk.injEq] at h1
      obtain ⟨rfl, rfl⟩ := h1
      exact h2
  | cons op a ih =>
    intro s t l
    simp only [List.cons_append, Watch.run]
    cases hs : s.step op with
    | none => simp
    | some x =>
      obtain ⟨s1, l0⟩ := x
      simp only [Option.map_eq_some_iff]
      constructor
      · rintro ⟨⟨t', l'⟩, h1, h2⟩
        simp only [Prod.mk.injEq] at h2
        obtain ⟨rfl, rfl⟩ := h2
        obtain ⟨u, l1, l2, g1, g2, rfl⟩ := (ih _ _ _).1 h1
        exact ⟨u, l0 ++ l1, l2, ⟨_, g1, rfl⟩, g2, by simp⟩
      · rintro ⟨u, l1, l2, ⟨⟨u', l1'⟩, g1, g2⟩, g3, rfl⟩
        simp only [Prod.mk.injEq] at g2
        obtain ⟨rfl, rfl⟩ := g2
        exact ⟨(t, l1' ++ l2), (ih _ _ _).2 ⟨_, _, _, g1, g3, rfl⟩, by simp⟩

theorem aux_wa_run_cons (op : WatchOp) (ops : List WatchOp) (s t : Watch) (l : List WatchEvent) :
    s.run (op :: ops) = some (t, l) ↔ ∃ u l1 l2, s.step op = some (u, l1) ∧ u.run ops = some (t, l2) ∧ l = l1 ++ l2 := by
  simp only [Watch.run]
  cases hs : s.step op with
  | none => simp
  | some x =>
    simp only [Option.map_eq_some_iff, Option.some.injEq]
    constructor
    · rintro ⟨⟨t', l'⟩, h1, h2⟩
      simp only [Prod.mk.injEq] at h2
      obtain ⟨rfl, rfl⟩ := h2
      exact ⟨x.1, x.2, l', rfl, h1, rfl⟩
    · rintro ⟨u, l1, l2, rfl, h2, rfl⟩
      exact ⟨(t, l2), h2, rfl⟩

/-- An invariant of steps is one of histories. -/
theorem aux_wa_invariant (P : Watch → Prop) (Q : WatchOp → Prop)
    (hstep : ∀ s op t l, P s → Q op → s.step op = some (t, l) → P t) :
    ∀ (ops : List WatchOp) (s t : Watch) (l : List WatchEvent), P s → (∀ op ∈ ops, Q op) → s.run ops = some (t, l) → P t := by
  intro ops
  induction ops with
  | nil => intro s t l hp _ hr; simp [Watch.run] at hr; exact hr.1 ▸ hp
  | cons op ops ih =>
    intro s t l hp hq hr
    obtain ⟨u, l1, l2, h1, h2, _⟩ := (aux_wa_run_cons _ _ _ _ _).1 hr
    exact ih u t l2 (hstep _ _ _ _ hp (hq op (by simp)) h1) (fun x hx => hq x (by simp [hx])) h2

/-! ### References -/

/-- The references minus the registrations, before and after the scan. -/
theorem aux_wa_scan_refs (full : Nat → Bool) (l : List Nat) : ∀ (f : Nat → WatchConn) (d : Nat), l.count d ≤ (f d).refs →
    ((watchScan full l f).1 d).refs + l.count d = (f d).refs + (watchScan full l f).2.1.count d ∧
    (watchScan full l f).2.1.count d ≤ ((watchScan full l f).1 d).refs ∧ (watchScan full l f).2.1.count d ≤ l.count d := by
  induction l with
  | nil => intro f d h; simp [watchScan]
  | cons c l ih =>
    intro f d h
    have hbeq : (c == d) = decide (d = c) := by
      rw [Bool.eq_iff_iff, beq_iff_eq, decide_eq_true_eq]; exact eq_comm
    have hdrop : ∀ w : WatchConn, w.refs = (f c).refs - 1 →
        ((watchScan full l (fun d => if d = c then w else f d)).1 d).refs + (c :: l).count d =
          (f d).refs + (watchScan full l (fun d => if d = c then w else f d)).2.1.count d ∧
        (watchScan full l (fun d => if d = c then w else f d)).2.1.count d ≤ ((watchScan full l (fun d => if d = c then w else f d)).1 d).refs ∧
        (watchScan full l (fun d => if d = c then w else f d)).2.1.count d ≤ (c :: l).count d := by
      intro w hw
      simp only [List.count_cons, hbeq] at h ⊢
      by_cases hc : d = c
      · subst hc
        simp only [decide_true, if_true] at h ⊢
        have := ih (fun x => if x = d then w else f x) d (by rw [if_pos rfl]; omega)
        rw [if_pos rfl] at this
        omega
      · simp only [hc, decide_false, Bool.false_eq_true, if_false] at h ⊢
        have := ih (fun x => if x = c then w else f x) d (by rw [if_neg hc]; omega)
        rw [if_neg hc] at this
        omega
    have hkeep : ((watchScan full l f).1 d).refs + (c :: l).count d = (f d).refs + (c :: (watchScan full l f).2.1).count d ∧
        (c :: (watchScan full l f).2.1).count d ≤ ((watchScan full l f).1 d).refs ∧
        (c :: (watchScan full l f).2.1).count d ≤ (c :: l).count d := by
      simp only [List.count_cons, hbeq] at h ⊢
      have := ih f d (by omega)
      omega
    unfold watchScan
    split
    · exact hdrop _ rfl
    · split
      · exact hdrop _ rfl
      · split
        · exact hkeep
        · split
          · exact hdrop _ rfl
          · exact hkeep

theorem aux_wa_close_refs (l : List Nat) : ∀ (f : Nat → WatchConn) (d : Nat), l.count d ≤ (f d).refs →
    ((watchClose l f).1 d).refs + l.count d = (f d).refs := by
  induction l with
  | nil => intro f d h; simp [watchClose]
  | cons c l ih =>
    intro f d h
    have hbeq : (c == d) = decide (d = c) := by
      rw [Bool.eq_iff_iff, beq_iff_eq, decide_eq_true_eq]; exact eq_comm
    unfold watchClose
    simp only [List.count_cons, hbeq] at h ⊢
    by_cases hc : d = c
    · subst hc
      simp only [decide_true, if_true] at h ⊢
      have := ih (fun x => if x = d then { (f d).unref with ok := false } else f x) d (by
        rw [if_pos rfl]; simp only [WatchConn.unref]; omega)
      rw [if_pos rfl] at this
      simp only [WatchConn.unref] at this
      simp only [WatchConn.unref]
      omega
    · simp only [hc, decide_false, Bool.false_eq_true, if_false] at h ⊢
      have := ih (fun x => if x = c then { (f c).unref with ok := false } else f x) d (by rw [if_neg hc]; omega)
      rw [if_neg hc] at this
      omega

def aux_wa_owned (s : Watch) : Prop := ∀ c, (s.conns c).refs = watchHeld s c

theorem aux_wa_register (s : Watch) (i : WatchItem) (q : List WatchItem) (hq : s.queue = i :: q) (h : aux_wa_owned s) (g : Option Nat) :
    aux_wa_owned ({ s with queue := q, group := g }.register i).1 := by
  intro d
  have hd := h d
  simp only [watchHeld, hq] at hd
  cases i with
  | conn c =>
    simp only [Watch.register]
    split
    · simp only [watchHeld, List.count_append, List.count_cons, List.count_nil] at hd ⊢
      by_cases hc : c = d <;> simp_all <;> omega
    · simp only [watchHeld, Watch.upd, List.count_cons] at hd ⊢
      by_cases hc : d = c
      · subst hc; simp_all [WatchConn.unref]; omega
      · have : ¬ c = d := fun h => hc h.symm
        simp_all
  | listener c =>
    simp only [Watch.register, watchHeld, List.count_append, List.count_cons, List.count_nil] at hd ⊢
    by_cases hc : c = d <;> simp_all <;> omega
  | terminate => simpa [Watch.register, watchHeld] using hd
  | ioChanged => simpa [Watch.register, watchHeld] using hd
  | ioReady => simpa [Watch.register, watchHeld] using hd
  | «foreach» k => simpa [Watch.register, watchHeld] using hd

theorem aux_wa_stop_owned (s : Watch) (h : aux_wa_owned s) : aux_wa_owned s.stopProcess.1 := by
  intro d
  have hd := h d
  simp only [watchHeld] at hd
  have h1 := aux_wa_close_refs s.srvList s.conns d (by omega)
  have h2 := aux_wa_close_refs s.conList (watchClose s.srvList s.conns).1 d (by omega)
  simp only [Watch.stopProcess, watchHeld, List.count_nil]
  omega

theorem aux_wa_owned_reader (s : Watch) (e : WatchEnv) (t : Watch) (l : List WatchEvent) (h : aux_wa_owned s)
    (hs : s.reader e = some (t, l)) : aux_wa_owned t := by
  have hsame : ∀ (i : WatchItem) (q : List WatchItem), s.queue = i :: q → (∀ c, i ≠ .conn c) → (∀ c, i ≠ .listener c) →
      ∀ d, (s.conns d).refs = q.count (.conn d) + q.count (.listener d) + s.conList.count d + s.srvList.count d := by
    intro i q hq h1 h2 d
    have hd := h d
    simp only [watchHeld, hq, List.count_cons] at hd
    have g1 : (i == WatchItem.conn d) = false := by simpa using h1 d
    have g2 : (i == WatchItem.listener d) = false := by simpa using h2 d
    simpa [g1, g2] using hd
  unfold Watch.reader at hs
  split at hs
  · -- first
    split at hs
    · simp at hs; exact hs.1 ▸ h
    · next q hq =>
      simp at hs; obtain ⟨rfl, _⟩ := hs
      exact aux_wa_stop_owned { s with queue := q } (hsame _ q hq (by simp) (by simp))
    · next q hq =>
      split at hs
      · simp at hs; obtain ⟨rfl, _⟩ := hs
        exact hsame _ q hq (by simp) (by simp)
      · simp at hs
    · next k q hq =>
      simp at hs; obtain ⟨rfl, _⟩ := hs
      exact hsame _ q hq (by simp) (by simp)
    · next i q _ _ _ hq =>
      simp at hs; obtain ⟨rfl, _⟩ := hs
      have := aux_wa_register s i q hq h s.group
      split
      · exact this
      · exact this
  · -- firstChange
    split at hs
    · simp at hs; exact hs.1 ▸ h
    · next i q hq =>
      simp at hs; obtain ⟨rfl, _⟩ := hs
      exact aux_wa_register s i q hq h (some s.mech)
  · -- scan
    split at hs
    · simp at hs
    · split at hs
      · simp at hs; obtain ⟨rfl, _⟩ := hs; exact h
      · simp at hs; obtain ⟨rfl, _⟩ := hs
        intro d
        have hd := h d
        simp only [watchHeld] at hd ⊢
        have h1 := aux_wa_scan_refs e.full s.srvList s.conns d (by omega)
        have h2 := aux_wa_scan_refs e.full s.conList (watchScan e.full s.srvList s.conns).1 d (by omega)
        try dsimp only at h1 h2 ⊢
        omega
  · split at hs
    · simp at hs
    · simp at hs; obtain ⟨rfl, _⟩ := hs; exact h
  · simp at hs; obtain ⟨rfl, _⟩ := hs; exact h
  · simp at hs; obtain ⟨rfl, _⟩ := hs; exact h
  · split at hs
    · simp at hs; obtain ⟨rfl, _⟩ := hs; exact h
    · simp only [Option.some.injEq] at hs
      have := aux_wa_stop_owned s h
      rw [hs] at this; exact this
  · -- pending
    split at hs
    · simp at hs; exact hs.1 ▸ h
    · next q hq =>
      simp at hs; obtain ⟨rfl, _⟩ := hs
      exact hsame _ q hq (by simp) (by simp)
    · next q hq =>
      split at hs
      · simp at hs; obtain ⟨rfl, _⟩ := hs
        exact hsame _ q hq (by simp) (by simp)
      · simp at hs
    · next k q hq =>
      simp at hs; obtain ⟨rfl, _⟩ := hs
      exact hsame _ q hq (by simp) (by simp)
    · next i q _ _ _ hq =>
      simp at hs; obtain ⟨rfl, _⟩ := hs
      exact aux_wa_register s i q hq h s.group
  · split at hs
    · simp at hs; exact hs.1 ▸ h
    · next i q hq =>
      simp at hs; obtain ⟨rfl, _⟩ := hs
      exact aux_wa_register s i q hq h (some s.mech)
  · simp at hs; exact hs.1 ▸ h

theorem aux_wa_owned_step (s : Watch) (op : WatchOp) (t : Watch) (l : List WatchEvent) (h : aux_wa_owned s)
    (hs : s.step op = some (t, l)) : aux_wa_owned t := by
  cases op with
  | reader e => exact aux_wa_owned_reader s e t l h hs
  | watch c =>
    simp only [Watch.step] at hs
    split at hs
    · simp at hs; obtain ⟨rfl, _⟩ := hs
      intro d
      have hd := h d
      simp only [watchHeld, Watch.push, Watch.upd, List.count_append, List.count_cons, List.count_nil] at hd ⊢
      by_cases hc : d = c
      · subst hc; simp; omega
      · have : ¬ c = d := fun h => hc h.symm
        simp_all
    · simp at hs; exact hs.1 ▸ h
  | listen c =>
    simp [Watch.step] at hs; obtain ⟨rfl, _⟩ := hs
    intro d
    have hd := h d
    simp only [watchHeld, Watch.push, Watch.upd, List.count_append, List.count_cons, List.count_nil] at hd ⊢
    by_cases hc : d = c
    · subst hc; simp; omega
    · have : ¬ c = d := fun h => hc h.symm
      simp_all
  | unwatch c =>
    simp [Watch.step] at hs; obtain ⟨rfl, _⟩ := hs
    intro d; have hd := h d; simp only [watchHeld, Watch.upd] at hd ⊢; split <;> simp_all
  | block c b =>
    simp [Watch.step] at hs; obtain ⟨rfl, _⟩ := hs
    intro d; have hd := h d; simp only [watchHeld, Watch.upd] at hd ⊢; split <;> simp_all
  | close c =>
    simp [Watch.step] at hs; obtain ⟨rfl, _⟩ := hs
    intro d; have hd := h d; simp only [watchHeld, Watch.upd] at hd ⊢; split <;> simp_all
  | stop =>
    simp [Watch.step] at hs; obtain ⟨rfl, _⟩ := hs
    intro d; have hd := h d; simpa [watchHeld, Watch.push, List.count_append] using hd
  | «foreach» k =>
    simp [Watch.step] at hs; obtain ⟨rfl, _⟩ := hs
    intro d; have hd := h d; simpa [watchHeld, Watch.push, List.count_append] using hd
  | useBegin m =>
    simp only [Watch.step] at hs
    split at hs
    · simp at hs; obtain ⟨rfl, _⟩ := hs
      intro d; have hd := h d; simpa [watchHeld, Watch.push, List.count_append] using hd
    · simp at hs; exact hs.1 ▸ h
  | useSet =>
    simp only [Watch.step] at hs
    split at hs
    · split at hs
      · simp at hs; obtain ⟨rfl, _⟩ := hs; exact h
      · simp at hs; exact hs.1 ▸ h
    · simp at hs; exact hs.1 ▸ h
  | useEnd =>
    simp only [Watch.step] at hs
    split at hs
    · simp at hs; obtain ⟨rfl, _⟩ := hs
      intro d; have hd := h d; simpa [watchHeld, Watch.push, List.count_append] using hd
    · simp at hs; exact hs.1 ▸ h

theorem aux_wa_owned_reached (s : Watch) (log : List WatchEvent) (h : watchReached s log) : aux_wa_owned s := by
  obtain ⟨conns, ops, hr⟩ := h
  refine aux_wa_invariant aux_wa_owned (fun _ => True) (fun s op t l hp _ hs => aux_wa_owned_step s op t l hp hs) ops _ _ _ ?_ (by simp) hr
  intro c; simp [Watch.init, watchHeld]

/-! ### C65: connections handed to the reader are served -/

/-- The property: the reader has one reference for each registration, and none once it ended; it reads from a connection only
while it has a reference; it gives up a connection only when it is closed, taken away, or cannot be watched, or the reader
ends; and otherwise a connection handed to it is watched, and served whenever there is something to read (this last part is
`C65_kept`, `C65_taken` and `C65_served`). -/
def C65_statement : Prop :=
  ∀ s log, watchReached s log →
    (∀ c, (s.conns c).refs = watchHeld s c) ∧ (s.phase = .stopped → ∀ c, (s.conns c).refs = 0) ∧
    ∀ op t l, s.step op = some (t, l) → ∀ c,
      (.process c ∈ l → 0 < (s.conns c).refs) ∧
      (.drop c ∈ l → (s.conns c).ok = false ∨ (s.conns c).unwatch = true ∨ t.phase = .stopped ∨
        ∃ e, op = .reader e ∧ e.full c = true)

theorem aux_wa_scan_drop (full : Nat → Bool) (c : Nat) (l : List Nat) : ∀ (f : Nat → WatchConn), .drop c ∈ (watchScan full l f).2.2.2 →
    (f c).ok = false ∨ (f c).unwatch = true ∨ full c = true := by
  induction l with
  | nil => intro f h; simp [watchScan] at h
  | cons d l ih =>
    intro f h
    unfold watchScan at h
    have hgen : ∀ w : WatchConn, (d = c → (f c).ok = false ∨ (f c).unwatch = true ∨ full c = true) →
        .drop c ∈ (watchScan full l (fun x => if x = d then w else f x)).2.2.2 →
        (f c).ok = false ∨ (f c).unwatch = true ∨ full c = true := by
      intro w hd h
      by_cases hc : c = d
      · exact hd hc.symm
      · have := ih _ h
        simpa only [hc, if_false] using this
    split at h
    · next hok =>
      have hok : (f d).ok = false := by simpa using hok
      simp only [List.mem_cons, WatchEvent.drop.injEq] at h
      rcases h with h | h
      · subst h; exact .inl hok
      · exact hgen _ (fun hd => by subst hd; exact .inl hok) h
    · split at h
      · next hun =>
        simp only [List.mem_cons, WatchEvent.drop.injEq] at h
        rcases h with h | h
        · subst h; exact .inr (.inl hun)
        · exact hgen _ (fun hd => by subst hd; exact .inr (.inl hun)) h
      · split at h
        · exact ih _ h
        · split at h
          · next hf =>
            simp only [List.mem_cons, WatchEvent.drop.injEq, reduceCtorEq, false_or] at h
            rcases h with h | h
            · subst h; exact .inr (.inr hf)
            · exact hgen _ (fun hd => by subst hd; exact .inr (.inr hf)) h
          · exact ih _ h

/-- The scan does not change these. -/
theorem aux_wa_scan_flags (full : Nat → Bool) (c : Nat) (l : List Nat) : ∀ (f : Nat → WatchConn),
    (((watchScan full l f).1 c).ok = false → (f c).ok = false ∨ full c = true) ∧
    (((watchScan full l f).1 c).unwatch = true → (f c).unwatch = true) ∧
    ((watchScan full l f).1 c).blocked = (f c).blocked := by
  induction l with
  | nil => intro f; exact ⟨.inl, id, rfl⟩
  | cons d l ih =>
    intro f
    unfold watchScan
    have hgen : ∀ w : WatchConn, (d = c → (w.ok = false → (f c).ok = false ∨ full c = true) ∧ (w.unwatch = true → (f c).unwatch = true) ∧
        w.blocked = (f c).blocked) →
        (((watchScan full l (fun x => if x = d then w else f x)).1 c).ok = false → (f c).ok = false ∨ full c = true) ∧
        (((watchScan full l (fun x => if x = d then w else f x)).1 c).unwatch = true → (f c).unwatch = true) ∧
        ((watchScan full l (fun x => if x = d then w else f x)).1 c).blocked = (f c).blocked := by
      intro w hw
      obtain ⟨h1, h2, h3⟩ := ih (fun x => if x = d then w else f x)
      by_cases hc : c = d
      · obtain ⟨g1, g2, g3⟩ := hw hc.symm
        simp only [hc, if_true] at h1 h2 h3 g1 g2 g3 ⊢
        exact ⟨fun h => (h1 h).elim g1 .inr, fun h => g2 (h2 h), h3.trans g3⟩
      · simp only [hc, if_false] at h1 h2 h3
        exact ⟨h1, h2, h3⟩
    split
    · exact hgen _ (fun hd => by subst hd; simp [WatchConn.unref]; intro h; exact .inl h)
    · split
      · exact hgen _ (fun hd => by subst hd; simp [WatchConn.unref]; intro h; exact .inl h)
      · split
        · exact ih f
        · split
          · next hf => exact hgen _ (fun hd => by subst hd; simp [WatchConn.unref, hf])
          · exact ih f

/-- What can be served is kept and put into the set. -/
theorem aux_wa_scan_keep (full : Nat → Bool) (c : Nat) (hf : full c = false) (l : List Nat) : ∀ (f : Nat → WatchConn),
    (f c).ok = true → (f c).unwatch = false → c ∈ l →
    c ∈ (watchScan full l f).2.1 ∧ ((f c).blocked = false → c ∈ (watchScan full l f).2.2.1) := by
  induction l with
  | nil => intro f _ _ h; simp at h
  | cons d l ih =>
    intro f ho hu hm
    unfold watchScan
    by_cases hc : d = c
    · subst hc
      simp only [ho, hu, hf, Bool.not_true, Bool.false_eq_true, if_false]
      split
      · next hb => simp [hb]
      · simp
    · have hm' : c ∈ l := by
        rcases List.mem_cons.1 hm with h | h
        · exact absurd h.symm hc
        · exact h
      have hgen : ∀ w : WatchConn, c ∈ (watchScan full l (fun x => if x = d then w else f x)).2.1 ∧
          ((f c).blocked = false → c ∈ (watchScan full l (fun x => if x = d then w else f x)).2.2.1) := by
        intro w
        have hcd : ¬ c = d := fun h => hc h.symm
        have := ih (fun x => if x = d then w else f x) (by simpa only [hcd, if_false] using ho)
          (by simpa only [hcd, if_false] using hu) hm'
        simpa only [hcd, if_false] using this
      split
      · exact hgen _
      · split
        · exact hgen _
        · split
          · have := ih f ho hu hm'; exact ⟨by simp [this.1], this.2⟩
          · split
            · exact hgen _
            · have := ih f ho hu hm'; exact ⟨by simp [this.1], fun hb => by simp [this.2 hb]⟩

/-- The set contains only connections that stay in the list. -/
theorem aux_wa_scan_set (full : Nat → Bool) (c : Nat) (l : List Nat) : ∀ (f : Nat → WatchConn),
    (c ∈ (watchScan full l f).2.2.1 → c ∈ (watchScan full l f).2.1) ∧ (watchScan full l f).2.2.1.length ≤ l.length ∧
    (watchScan full l f).2.1.length ≤ l.length := by
  induction l with
  | nil => intro f; simp [watchScan]
  | cons d l ih =>
    intro f
    unfold watchScan
    have hgen : ∀ g : Nat → WatchConn, (c ∈ (watchScan full l g).2.2.1 → c ∈ (watchScan full l g).2.1) ∧
        (watchScan full l g).2.2.1.length ≤ (d :: l).length ∧ (watchScan full l g).2.1.length ≤ (d :: l).length := by
      intro g
      have := ih g
      simp only [List.length_cons]
      exact ⟨this.1, by omega, by omega⟩
    have := ih f
    split
    · exact hgen _
    · split
      · exact hgen _
      · split
        · simp only [List.length_cons, List.mem_cons]
          exact ⟨fun h => .inr (this.1 h), by omega, by omega⟩
        · split
          · exact hgen _
          · simp only [List.length_cons, List.mem_cons]
            exact ⟨fun h => h.imp_right this.1, by omega, by omega⟩

/-- What the reader is about to serve is in its lists. -/
def aux_wa_todo (s : Watch) : Prop :=
  match s.phase with
  | .wait set => ∀ c ∈ set, c ∈ s.srvList ∨ c ∈ s.conList
  | .dispatch todo => ∀ c ∈ todo, c ∈ s.srvList ∨ c ∈ s.conList
  | _ => True

theorem aux_wa_todo_step (s : Watch) (op : WatchOp) (t : Watch) (l : List WatchEvent) (h : aux_wa_todo s)
    (hs : s.step op = some (t, l)) : aux_wa_todo t := by
  cases op with
  | reader e =>
    simp only [Watch.step] at hs
    unfold Watch.reader at hs
    split at hs
    · next hp =>
      split at hs
      · simp at hs; exact hs.1 ▸ h
      · simp at hs; obtain ⟨rfl, _⟩ := hs; simp [aux_wa_todo, Watch.stopProcess]
      · split at hs
        · simp at hs; obtain ⟨rfl, _⟩ := hs; simp [aux_wa_todo]
        · simp at hs
      · simp at hs; obtain ⟨rfl, _⟩ := hs; simp [aux_wa_todo]
      · next i q _ _ _ hq =>
        simp at hs; obtain ⟨rfl, _⟩ := hs
        split
        · simp [aux_wa_todo]
        · have : ({ s with queue := q }.register i).1.phase = .first := by
            unfold Watch.register Watch.upd; repeat' split
            all_goals exact hp
          simp [aux_wa_todo, this]
    · next hp =>
      split at hs
      · simp at hs; exact hs.1 ▸ h
      · simp at hs; obtain ⟨rfl, _⟩ := hs; unfold aux_wa_todo; dsimp only; split <;> split at * <;> simp_all
    · split at hs
      · simp at hs
      · split at hs
        · simp at hs; obtain ⟨rfl, _⟩ := hs; simp [aux_wa_todo]
        · simp at hs; obtain ⟨rfl, _⟩ := hs
          simp only [aux_wa_todo]
          intro c hc
          rcases List.mem_append.1 hc with hc | hc
          · exact .inl ((aux_wa_scan_set _ _ _ _).1 hc)
          · exact .inr ((aux_wa_scan_set _ _ _ _).1 hc)
    · next set hp =>
      split at hs
      · simp at hs
      · simp at hs; obtain ⟨rfl, _⟩ := hs
        simp only [aux_wa_todo, hp] at h ⊢
        intro c hc
        exact h c (List.mem_filter.1 hc).1
    · simp at hs; obtain ⟨rfl, _⟩ := hs; simp [aux_wa_todo]
    · next c todo hp =>
      simp at hs; obtain ⟨rfl, _⟩ := hs
      simp only [aux_wa_todo, hp] at h ⊢
      exact fun d hd => h d (by simp [hd])
    · split at hs
      · simp at hs; obtain ⟨rfl, _⟩ := hs; simp [aux_wa_todo]
      · simp only [Option.some.injEq, Watch.stopProcess, Prod.mk.injEq] at hs; obtain ⟨rfl, _⟩ := hs; simp [aux_wa_todo]
    · next hp =>
      split at hs
      · simp at hs; exact hs.1 ▸ h
      · simp at hs; obtain ⟨rfl, _⟩ := hs; simp [aux_wa_todo]
      · split at hs
        · simp at hs; obtain ⟨rfl, _⟩ := hs; simp [aux_wa_todo]
        · simp at hs
      · simp at hs; obtain ⟨rfl, _⟩ := hs; simp [aux_wa_todo]
      · simp at hs; obtain ⟨rfl, _⟩ := hs; simp [aux_wa_todo]
    · split at hs
      · simp at hs; exact hs.1 ▸ h
      · simp at hs; obtain ⟨rfl, _⟩ := hs; simp [aux_wa_todo]
    · simp at hs; exact hs.1 ▸ h
  | watch c => simp only [Watch.step] at hs; split at hs <;> (simp at hs; obtain ⟨rfl, _⟩ := hs; exact h)
  | listen c => simp [Watch.step] at hs; obtain ⟨rfl, _⟩ := hs; exact h
  | unwatch c => simp [Watch.step] at hs; obtain ⟨rfl, _⟩ := hs; exact h
  | block c b => simp [Watch.step] at hs; obtain ⟨rfl, _⟩ := hs; exact h
  | close c => simp [Watch.step] at hs; obtain ⟨rfl, _⟩ := hs; exact h
  | stop => simp [Watch.step] at hs; obtain ⟨rfl, _⟩ := hs; exact h
  | «foreach» k => simp [Watch.step] at hs; obtain ⟨rfl, _⟩ := hs; exact h
  | useBegin m => simp only [Watch.step] at hs; split at hs <;> (simp at hs; obtain ⟨rfl, _⟩ := hs; exact h)
  | useSet =>
    simp only [Watch.step] at hs
    split at hs
    · split at hs <;> (simp at hs; obtain ⟨rfl, _⟩ := hs; exact h)
    · simp at hs; obtain ⟨rfl, _⟩ := hs; exact h
  | useEnd => simp only [Watch.step] at hs; split at hs <;> (simp at hs; obtain ⟨rfl, _⟩ := hs; exact h)

theorem aux_wa_todo_reached (s : Watch) (log : List WatchEvent) (h : watchReached s log) : aux_wa_todo s := by
  obtain ⟨conns, ops, hr⟩ := h
  exact aux_wa_invariant aux_wa_todo (fun _ => True) (fun s op t l hp _ hs => aux_wa_todo_step s op t l hp hs) ops _ _ _
    (by simp [Watch.init, aux_wa_todo]) (by simp) hr

/-- In every history: one reference for each registration; it reads only with a reference. -/
theorem C65_owned_partial (s : Watch) (log : List WatchEvent) (h : watchReached s log) :
    (∀ c, (s.conns c).refs = watchHeld s c) ∧
    ∀ op t l, s.step op = some (t, l) → ∀ c, .process c ∈ l → 0 < (s.conns c).refs := by
  have ho := aux_wa_owned_reached s log h
  refine ⟨ho, fun op t l hs c hc => ?_⟩
  have hmem : c ∈ s.srvList ∨ c ∈ s.conList := by
    have ht := aux_wa_todo_reached s log h
    cases op with
    | reader e =>
      simp only [Watch.step] at hs
      unfold Watch.reader at hs
      have hreg : ∀ (x : Watch) (i : WatchItem), .process c ∉ (x.register i).2.2 := by
        intro x i; unfold Watch.register; repeat' split
        all_goals simp
      have hclose : ∀ (l : List Nat) (f : Nat → WatchConn), .process c ∉ (watchClose l f).2 := by
        intro l; induction l with
        | nil => intro f; simp [watchClose]
        | cons d l ih => intro f; simp [watchClose, ih]
      have hscan : ∀ (l : List Nat) (f : Nat → WatchConn), .process c ∉ (watchScan e.full l f).2.2.2 := by
        intro l; induction l with
        | nil => intro f; simp [watchScan]
        | cons d l ih =>
          intro f; unfold watchScan; repeat' split
          all_goals simp [ih]
      have heach : ∀ k, .process c ∉ s.foreachImpl k := by intro k; simp [Watch.foreachImpl]
      split at hs
      · split at hs
        · simp at hs; first | (simp [← hs.2] at hc; done) | (simp [hs.2] at hc; done)
        · simp at hs; simp [← hs.2, Watch.stopProcess, hclose] at hc
        · split at hs
          · simp at hs; first | (simp [← hs.2] at hc; done) | (simp [hs.2] at hc; done)
          · simp at hs
        · simp at hs; exact absurd (hs.2 ▸ hc) (heach _)
        · simp at hs; exact absurd (hs.2 ▸ hc) (hreg _ _)
      · split at hs
        · simp at hs; first | (simp [← hs.2] at hc; done) | (simp [hs.2] at hc; done)
        · simp at hs; exact absurd (hs.2 ▸ hc) (hreg _ _)
      · split at hs
        · simp at hs
        · split at hs
          · simp at hs; first | (simp [← hs.2] at hc; done) | (simp [hs.2] at hc; done)
          · simp at hs; simp [← hs.2, hscan] at hc
      · split at hs
        · simp at hs
        · simp at hs; first | (simp [← hs.2] at hc; done) | (simp [hs.2] at hc; done)
      · simp at hs; first | (simp [← hs.2] at hc; done) | (simp [hs.2] at hc; done)
      · next d todo hp =>
        simp at hs
        have : c = d := by simpa [← hs.2] using hc
        subst this
        simp only [aux_wa_todo, hp] at ht
        exact ht c (by simp)
      · split at hs
        · simp at hs; first | (simp [← hs.2] at hc; done) | (simp [hs.2] at hc; done)
        · simp only [Option.some.injEq, Watch.stopProcess, Prod.mk.injEq] at hs; simp [← hs.2, hclose] at hc
      · split at hs
        · simp at hs; first | (simp [← hs.2] at hc; done) | (simp [hs.2] at hc; done)
        · simp at hs; first | (simp [← hs.2] at hc; done) | (simp [hs.2] at hc; done)
        · split at hs
          · simp at hs; first | (simp [← hs.2] at hc; done) | (simp [hs.2] at hc; done)
          · simp at hs
        · simp at hs; exact absurd (hs.2 ▸ hc) (heach _)
        · simp at hs; exact absurd (hs.2 ▸ hc) (hreg _ _)
      · split at hs
        · simp at hs; first | (simp [← hs.2] at hc; done) | (simp [hs.2] at hc; done)
        · simp at hs; exact absurd (hs.2 ▸ hc) (hreg _ _)
      · simp at hs; first | (simp [← hs.2] at hc; done) | (simp [hs.2] at hc; done)
    | watch c => simp only [Watch.step] at hs; split at hs <;> (simp at hs; first | (simp [← hs.2] at hc; done) | (simp [hs.2] at hc; done))
    | listen c => simp [Watch.step] at hs; first | (simp [← hs.2] at hc; done) | (simp [hs.2] at hc; done)
    | unwatch c => simp [Watch.step] at hs; first | (simp [← hs.2] at hc; done) | (simp [hs.2] at hc; done)
    | block c b => simp [Watch.step] at hs; first | (simp [← hs.2] at hc; done) | (simp [hs.2] at hc; done)
    | close c => simp [Watch.step] at hs; first | (simp [← hs.2] at hc; done) | (simp [hs.2] at hc; done)
    | stop => simp [Watch.step] at hs; first | (simp [← hs.2] at hc; done) | (simp [hs.2] at hc; done)
    | «foreach» k => simp [Watch.step] at hs; first | (simp [← hs.2] at hc; done) | (simp [hs.2] at hc; done)
    | useBegin m => simp only [Watch.step] at hs; split at hs <;> (simp at hs; first | (simp [← hs.2] at hc; done) | (simp [hs.2] at hc; done))
    | useSet =>
      simp only [Watch.step] at hs
      split at hs
      · split at hs <;> (simp at hs; first | (simp [← hs.2] at hc; done) | (simp [hs.2] at hc; done))
      · simp at hs; first | (simp [← hs.2] at hc; done) | (simp [hs.2] at hc; done)
    | useEnd => simp only [Watch.step] at hs; split at hs <;> (simp at hs; first | (simp [← hs.2] at hc; done) | (simp [hs.2] at hc; done))
  rw [ho c]
  simp only [watchHeld]
  rcases hmem with hm | hm
  · have := List.count_pos_iff.2 hm; omega
  · have := List.count_pos_iff.2 hm; omega

/-- The reader gives up a connection only when it does not work, was taken away or cannot be watched, or the reader ends. -/
theorem C65_given_up (s : Watch) (op : WatchOp) (t : Watch) (l : List WatchEvent) (hs : s.step op = some (t, l)) (c : Nat)
    (hc : .drop c ∈ l) : (s.conns c).ok = false ∨ (s.conns c).unwatch = true ∨ t.phase = .stopped ∨
      ∃ e, op = .reader e ∧ e.full c = true := by
  cases op with
  | reader e =>
    simp only [Watch.step] at hs
    unfold Watch.reader at hs
    have hreg : ∀ (i : WatchItem) (q : List WatchItem) (g : Option Nat), .drop c ∈ ({ s with queue := q, group := g }.register i).2.2 → (s.conns c).ok = false := by
      intro i q g h
      unfold Watch.register at h
      split at h
      · split at h
        · simp at h
        · next hok =>
          simp only [List.mem_singleton, WatchEvent.drop.injEq] at h
          subst h; simpa using hok
      · simp at h
      · simp at h
    have heach : ∀ k, .drop c ∉ s.foreachImpl k := by intro k; simp [Watch.foreachImpl]
    split at hs
    · split at hs
      · simp at hs; first | (simp [← hs.2] at hc; done) | (simp [hs.2] at hc; done)
      · simp at hs; exact .inr (.inr (.inl (by simp [← hs.1, Watch.stopProcess])))
      · split at hs
        · simp at hs; first | (simp [← hs.2] at hc; done) | (simp [hs.2] at hc; done)
        · simp at hs
      · simp at hs; exact absurd (hs.2 ▸ hc) (heach _)
      · next i q _ _ _ hq => simp at hs; exact .inl (hreg i q s.group (hs.2 ▸ hc))
    · split at hs
      · simp at hs; first | (simp [← hs.2] at hc; done) | (simp [hs.2] at hc; done)
      · next i q hq => simp at hs; exact .inl (hreg i q _ (hs.2 ▸ hc))
    · split at hs
      · simp at hs
      · split at hs
        · simp at hs; first | (simp [← hs.2] at hc; done) | (simp [hs.2] at hc; done)
        · simp at hs
          rw [← hs.2] at hc
          rcases List.mem_append.1 hc with h | h
          · rcases aux_wa_scan_drop _ _ _ _ h with h | h | h
            · exact .inl h
            · exact .inr (.inl h)
            · exact .inr (.inr (.inr ⟨e, rfl, h⟩))
          · have hf := aux_wa_scan_flags e.full c s.srvList s.conns
            rcases aux_wa_scan_drop _ _ _ _ h with h | h | h
            · rcases hf.1 h with h | h
              · exact .inl h
              · exact .inr (.inr (.inr ⟨e, rfl, h⟩))
            · exact .inr (.inl (hf.2.1 h))
            · exact .inr (.inr (.inr ⟨e, rfl, h⟩))
    · split at hs
      · simp at hs
      · simp at hs; first | (simp [← hs.2] at hc; done) | (simp [hs.2] at hc; done)
    · simp at hs; first | (simp [← hs.2] at hc; done) | (simp [hs.2] at hc; done)
    · simp at hs; first | (simp [← hs.2] at hc; done) | (simp [hs.2] at hc; done)
    · split at hs
      · simp at hs; first | (simp [← hs.2] at hc; done) | (simp [hs.2] at hc; done)
      · simp only [Option.some.injEq, Watch.stopProcess, Prod.mk.injEq] at hs; exact .inr (.inr (.inl (by simp [← hs.1])))
    · split at hs
      · simp at hs; first | (simp [← hs.2] at hc; done) | (simp [hs.2] at hc; done)
      · simp at hs; first | (simp [← hs.2] at hc; done) | (simp [hs.2] at hc; done)
      · split at hs
        · simp at hs; first | (simp [← hs.2] at hc; done) | (simp [hs.2] at hc; done)
        · simp at hs
      · simp at hs; exact absurd (hs.2 ▸ hc) (heach _)
      · next i q _ _ _ hq => simp at hs; exact .inl (hreg i q s.group (hs.2 ▸ hc))
    · split at hs
      · simp at hs; first | (simp [← hs.2] at hc; done) | (simp [hs.2] at hc; done)
      · next i q hq => simp at hs; exact .inl (hreg i q _ (hs.2 ▸ hc))
    · simp at hs; first | (simp [← hs.2] at hc; done) | (simp [hs.2] at hc; done)
  | watch c => simp only [Watch.step] at hs; split at hs <;> (simp at hs; first | (simp [← hs.2] at hc; done) | (simp [hs.2] at hc; done))
  | listen c => simp [Watch.step] at hs; first | (simp [← hs.2] at hc; done) | (simp [hs.2] at hc; done)
  | unwatch c => simp [Watch.step] at hs; first | (simp [← hs.2] at hc; done) | (simp [hs.2] at hc; done)
  | block c b => simp [Watch.step] at hs; first | (simp [← hs.2] at hc; done) | (simp [hs.2] at hc; done)
  | close c => simp [Watch.step] at hs; first | (simp [← hs.2] at hc; done) | (simp [hs.2] at hc; done)
  | stop => simp [Watch.step] at hs; first | (simp [← hs.2] at hc; done) | (simp [hs.2] at hc; done)
  | «foreach» k => simp [Watch.step] at hs; first | (simp [← hs.2] at hc; done) | (simp [hs.2] at hc; done)
  | useBegin m => simp only [Watch.step] at hs; split at hs <;> (simp at hs; first | (simp [← hs.2] at hc; done) | (simp [hs.2] at hc; done))
  | useSet =>
    simp only [Watch.step] at hs
    split at hs
    · split at hs <;> (simp at hs; first | (simp [← hs.2] at hc; done) | (simp [hs.2] at hc; done))
    · simp at hs; first | (simp [← hs.2] at hc; done) | (simp [hs.2] at hc; done)
  | useEnd => simp only [Watch.step] at hs; split at hs <;> (simp at hs; first | (simp [← hs.2] at hc; done) | (simp [hs.2] at hc; done))

theorem aux_wa_scan_down (full : Nat → Bool) (c : Nat) (l : List Nat) (f : Nat → WatchConn) (h : (f c).ok = false) :
    ((watchScan full l f).1 c).ok = false := by
  induction l generalizing f with
  | nil => exact h
  | cons d l ih =>
    simp only [watchScan]
    repeat' split
    all_goals refine ih _ ?_
    all_goals first | exact h | (simp only [WatchConn.unref]; split <;> simp_all)

theorem aux_wa_scan_left (full : Nat → Bool) (c : Nat) (l : List Nat) (f : Nat → WatchConn) (h : .drop c ∈ (watchScan full l f).2.2.2) :
    (f c).unwatch = true ∨ ((watchScan full l f).1 c).ok = false := by
  induction l generalizing f with
  | nil => simp [watchScan] at h
  | cons d l ih =>
    simp only [watchScan] at h ⊢
    split at h
    · next hok =>
      simp only [hok, if_true]
      simp only [List.mem_cons, WatchEvent.drop.injEq] at h
      by_cases hcd : c = d
      · subst hcd; right; refine aux_wa_scan_down _ _ _ _ ?_; simpa [WatchConn.unref] using hok
      · rcases h with h | h
        · exact absurd h hcd
        · have := ih _ h; simpa [hcd] using this
    · next hok =>
      simp only [hok]
      split at h
      · next hun =>
        simp only [hun, if_true]
        simp only [List.mem_cons, WatchEvent.drop.injEq] at h
        by_cases hcd : c = d
        · subst hcd; left; exact hun
        · rcases h with h | h
          · exact absurd h hcd
          · have := ih _ h; simpa [hcd] using this
      · next hun =>
        simp only [hun]
        split at h
        · next hb => simp only [hb, if_true]; exact ih _ h
        · next hb =>
          simp only [hb]
          split at h
          · next hf =>
            simp only [hf, if_true]
            simp only [List.mem_cons, WatchEvent.drop.injEq, reduceCtorEq, false_or] at h
            by_cases hcd : c = d
            · subst hcd; right; refine aux_wa_scan_down _ _ _ _ ?_; simp
            · rcases h with h | h
              · exact absurd h hcd
              · have := ih _ h; simpa [hcd] using this
          · next hf => simp only [hf]; exact ih _ h

/-- A connection the reader stops to watch when it builds its set was taken away, or does not work afterwards: none is left open with nobody
to serve it. -/
theorem C65_left_down (s t : Watch) (e : WatchEnv) (l : List WatchEvent) (hp : s.phase = .scan) (hs : s.step (.reader e) = some (t, l)) (c : Nat)
    (hc : .drop c ∈ l) : (s.conns c).unwatch = true ∨ (t.conns c).ok = false := by
  simp only [Watch.step, Watch.reader, hp] at hs
  split at hs
  · simp at hs
  · split at hs
    · simp at hs; simp [← hs.2] at hc
    · simp only [Option.some.injEq, Prod.mk.injEq] at hs
      rw [← hs.1]; rw [← hs.2] at hc
      rcases List.mem_append.1 hc with h | h
      · exact (aux_wa_scan_left _ _ _ _ h).imp id (aux_wa_scan_down _ _ _ _)
      · exact (aux_wa_scan_left _ _ _ _ h).imp (aux_wa_scan_flags e.full c s.srvList s.conns).2.1 id

/-- Where the registration of a connection is. -/
def aux_wa_place (c : Nat) (s : Watch) : Prop :=
  match s.phase with
  | .dispatch [] => .conn c ∈ s.queue
  | .pending n _ => .conn c ∈ s.queue.take n
  | .change n _ => .conn c ∈ s.queue.take (n + 1)
  | _ => False

def aux_wa_flags (c : Nat) (s : Watch) : Prop := (s.conns c).ok = true ∧ (s.conns c).unwatch = false

theorem aux_wa_register_flags (c : Nat) (s : Watch) (i : WatchItem) (h : aux_wa_flags c s) :
    aux_wa_flags c (s.register i).1 ∧ (s.register i).1.queue = s.queue ∧ (∀ d ∈ s.conList, d ∈ (s.register i).1.conList) ∧
    (i = .conn c → c ∈ (s.register i).1.conList) ∧ (s.register i).1.phase = s.phase := by
  unfold Watch.register aux_wa_flags at *
  split
  · split
    · next d hd =>
      refine ⟨h, rfl, fun x hx => by simp [hx], fun hi => by simp at hi; simp [hi], rfl⟩
    · next d hd =>
      have hdc : ¬ c = d := by rintro rfl; exact hd h.1
      refine ⟨by simp [Watch.upd, hdc, h], rfl, fun x hx => hx, fun hi => by simp at hi; exact absurd hi.symm hdc, rfl⟩
  · refine ⟨h, rfl, fun x hx => hx, fun hi => by simp at hi, rfl⟩
  · next i h1 h2 => exact ⟨h, rfl, fun x hx => hx, fun hi => absurd hi (h1 c), rfl⟩

/-- The reader keeps a connection that nothing takes away. -/
theorem aux_wa_reader_keeps (c : Nat) (s : Watch) (e : WatchEnv) (t : Watch) (l : List WatchEvent) (hf : e.full c = false)
    (h : aux_wa_flags c s) (hs : s.reader e = some (t, l)) :
    t.phase = .stopped ∨ (aux_wa_flags c t ∧ (c ∈ s.conList → c ∈ t.conList) ∧
      (.conn c ∈ s.queue → .conn c ∈ t.queue ∨ c ∈ t.conList) ∧ (aux_wa_place c s → aux_wa_place c t ∨ c ∈ t.conList)) := by
  have hcons : ∀ (i : WatchItem) (q : List WatchItem), s.queue = i :: q → .conn c ∈ s.queue → i = .conn c ∨ .conn c ∈ q := by
    intro i q hq hm; rw [hq] at hm; exact (List.mem_cons.1 hm).imp Eq.symm id
  unfold Watch.reader at hs
  split at hs
  · next hp =>
    have hpl : ¬ aux_wa_place c s := by simp [aux_wa_place, hp]
    split at hs
    · simp at hs; obtain ⟨rfl, _⟩ := hs; exact .inr ⟨h, id, .inl, .inl⟩
    · simp at hs; exact .inl (by simp [← hs.1, Watch.stopProcess])
    · next q hq =>
      split at hs
      · simp at hs; obtain ⟨rfl, _⟩ := hs
        exact .inr ⟨h, id, fun hm => .inl ((hcons _ _ hq hm).resolve_left (by simp)), fun x => absurd x hpl⟩
      · simp at hs
    · next k q hq =>
      simp at hs; obtain ⟨rfl, _⟩ := hs
      exact .inr ⟨h, id, fun hm => .inl ((hcons _ _ hq hm).resolve_left (by simp)), fun x => absurd x hpl⟩
    · next i q _ _ _ hq =>
      simp at hs; obtain ⟨rfl, _⟩ := hs
      obtain ⟨g1, g2, g3, g4, g5⟩ := aux_wa_register_flags c { s with queue := q } i h
      refine .inr ?_
      split
      · refine ⟨g1, g3 c, fun hm => ?_, fun x => absurd x hpl⟩
        rcases hcons _ _ hq hm with hi | hi
        · exact .inr (g4 hi)
        · exact .inl (by simpa [g2] using hi)
      · refine ⟨g1, g3 c, fun hm => ?_, fun x => absurd x hpl⟩
        rcases hcons _ _ hq hm with hi | hi
        · exact .inr (g4 hi)
        · exact .inl (by simpa [g2] using hi)
  · next hp =>
    have hpl : ¬ aux_wa_place c s := by simp [aux_wa_place, hp]
    split at hs
    · simp at hs; obtain ⟨rfl, _⟩ := hs; exact .inr ⟨h, id, .inl, .inl⟩
    · next i q hq =>
      simp at hs; obtain ⟨rfl, _⟩ := hs
      obtain ⟨g1, g2, g3, g4, g5⟩ := aux_wa_register_flags c { s with queue := q, group := some s.mech } i h
      refine .inr ⟨g1, g3 c, fun hm => ?_, fun x => absurd x hpl⟩
      rcases hcons _ _ hq hm with hi | hi
      · exact .inr (g4 hi)
      · exact .inl (by simpa [g2] using hi)
  · next hp =>
    have hpl : ¬ aux_wa_place c s := by simp [aux_wa_place, hp]
    split at hs
    · simp at hs
    · split at hs
      · simp at hs; obtain ⟨rfl, _⟩ := hs; exact .inr ⟨h, id, .inl, fun x => absurd x hpl⟩
      · simp at hs; obtain ⟨rfl, _⟩ := hs
        have a1 := aux_wa_scan_flags e.full c s.srvList s.conns
        have a2 := aux_wa_scan_flags e.full c s.conList (watchScan e.full s.srvList s.conns).1
        have b1 : aux_wa_flags c { s with conns := (watchScan e.full s.srvList s.conns).1 } := by
          constructor
          · cases hx : ((watchScan e.full s.srvList s.conns).1 c).ok with
            | true => rfl
            | false => rcases a1.1 hx with x | x <;> simp_all [aux_wa_flags]
          · cases hx : ((watchScan e.full s.srvList s.conns).1 c).unwatch with
            | false => rfl
            | true => have := a1.2.1 hx; simp_all [aux_wa_flags]
        have b2 : aux_wa_flags c { s with conns := (watchScan e.full s.conList (watchScan e.full s.srvList s.conns).1).1 } := by
          constructor
          · cases hx : ((watchScan e.full s.conList (watchScan e.full s.srvList s.conns).1).1 c).ok with
            | true => rfl
            | false => rcases a2.1 hx with x | x <;> simp_all [aux_wa_flags]
          · cases hx : ((watchScan e.full s.conList (watchScan e.full s.srvList s.conns).1).1 c).unwatch with
            | false => rfl
            | true => have := a2.2.1 hx; simp_all [aux_wa_flags]
        exact .inr ⟨b2, fun hm => (aux_wa_scan_keep e.full c hf s.conList _ b1.1 b1.2 hm).1, .inl, fun x => absurd x hpl⟩
  · next hp =>
    have hpl : ¬ aux_wa_place c s := by simp [aux_wa_place, hp]
    split at hs
    · simp at hs
    · simp at hs; obtain ⟨rfl, _⟩ := hs; exact .inr ⟨h, id, .inl, fun x => absurd x hpl⟩
  · next hp =>
    simp at hs; obtain ⟨rfl, _⟩ := hs
    refine .inr ⟨h, id, .inl, fun x => .inl ?_⟩
    simp only [aux_wa_place, hp] at x ⊢
    simpa using x
  · next d todo hp =>
    have hpl : ¬ aux_wa_place c s := by simp [aux_wa_place, hp]
    simp at hs; obtain ⟨rfl, _⟩ := hs
    exact .inr ⟨h, id, .inl, fun x => absurd x hpl⟩
  · next go hp =>
    have hpl : ¬ aux_wa_place c s := by simp [aux_wa_place, hp]
    split at hs
    · simp at hs; obtain ⟨rfl, _⟩ := hs; exact .inr ⟨h, id, .inl, fun x => absurd x hpl⟩
    · simp only [Option.some.injEq, Watch.stopProcess, Prod.mk.injEq] at hs; exact .inl (by simp [← hs.1])
  · next n go hp =>
    split at hs
    · simp at hs; obtain ⟨rfl, _⟩ := hs; exact .inr ⟨h, id, .inl, .inl⟩
    · next q hq =>
      simp at hs; obtain ⟨rfl, _⟩ := hs
      refine .inr ⟨h, id, fun hm => .inl ((hcons _ _ hq hm).resolve_left (by simp)), fun x => .inl ?_⟩
      simpa [aux_wa_place, hp, hq] using x
    · next q hq =>
      split at hs
      · simp at hs; obtain ⟨rfl, _⟩ := hs
        refine .inr ⟨h, id, fun hm => .inl ((hcons _ _ hq hm).resolve_left (by simp)), fun x => .inl ?_⟩
        have x : WatchItem.conn c ∈ q.take n := by simpa [aux_wa_place, hp, hq] using x
        exact (List.take_prefix_take_left (Nat.le_succ n)).subset x
      · simp at hs
    · next k q hq =>
      simp at hs; obtain ⟨rfl, _⟩ := hs
      refine .inr ⟨h, id, fun hm => .inl ((hcons _ _ hq hm).resolve_left (by simp)), fun x => .inl ?_⟩
      simpa [aux_wa_place, hp, hq] using x
    · next i q _ _ _ hq =>
      simp at hs; obtain ⟨rfl, _⟩ := hs
      obtain ⟨g1, g2, g3, g4, g5⟩ := aux_wa_register_flags c { s with queue := q } i h
      refine .inr ⟨g1, g3 c, fun hm => ?_, fun x => ?_⟩
      · rcases hcons _ _ hq hm with hi | hi
        · exact .inr (g4 hi)
        · exact .inl (by simpa [g2] using hi)
      · have x : i = .conn c ∨ WatchItem.conn c ∈ q.take n := by simpa [aux_wa_place, hp, hq, eq_comm] using x
        rcases x with x | x
        · exact .inr (g4 x)
        · exact .inl (by simpa [aux_wa_place, g2] using x)
  · next n go hp =>
    split at hs
    · simp at hs; obtain ⟨rfl, _⟩ := hs; exact .inr ⟨h, id, .inl, .inl⟩
    · next i q hq =>
      simp at hs; obtain ⟨rfl, _⟩ := hs
      obtain ⟨g1, g2, g3, g4, g5⟩ := aux_wa_register_flags c { s with queue := q, group := some s.mech } i h
      refine .inr ⟨g1, g3 c, fun hm => ?_, fun x => ?_⟩
      · rcases hcons _ _ hq hm with hi | hi
        · exact .inr (g4 hi)
        · exact .inl (by simpa [g2] using hi)
      · have x : i = .conn c ∨ WatchItem.conn c ∈ q.take n := by simpa [aux_wa_place, hp, hq, eq_comm] using x
        rcases x with x | x
        · exact .inr (g4 x)
        · exact .inl (by simpa [aux_wa_place, g2] using x)
  · next hp => simp at hs; obtain ⟨rfl, _⟩ := hs; exact .inl hp

/-- The other threads only add to the queue, and do not move the reader. -/
theorem aux_wa_other (s : Watch) (op : WatchOp) (t : Watch) (l : List WatchEvent) (h : isReaderStep op = false)
    (hs : s.step op = some (t, l)) : t.phase = s.phase ∧ t.conList = s.conList ∧ t.srvList = s.srvList ∧ l = [] ∧
      (∃ q, t.queue = s.queue ++ q) ∧ ∀ c, watchLeaves c op → aux_wa_flags c s → aux_wa_flags c t := by
  have hupd : ∀ (d : Nat) (f : WatchConn → WatchConn), (∀ w, (f w).ok = w.ok ∧ (f w).unwatch = w.unwatch) →
      ∀ c, aux_wa_flags c s → aux_wa_flags c (s.upd d f) := by
    intro d f hf c hc
    simp only [aux_wa_flags, Watch.upd] at hc ⊢
    split
    · next hd => subst hd; rw [(hf _).1, (hf _).2]; exact hc
    · exact hc
  have hupd2 : ∀ (d : Nat) (f : WatchConn → WatchConn) (c : Nat), d ≠ c → aux_wa_flags c s → aux_wa_flags c (s.upd d f) := by
    intro d f c hd hc
    have : ¬ c = d := fun h => hd h.symm
    simpa [aux_wa_flags, Watch.upd, this] using hc
  cases op with
  | reader e => simp [isReaderStep] at h
  | watch d =>
    simp only [Watch.step] at hs
    split at hs
    · simp at hs; obtain ⟨rfl, rfl⟩ := hs
      exact ⟨rfl, rfl, rfl, rfl, ⟨_, rfl⟩, fun c _ hc => hupd d (fun w => { w with refs := w.refs + 1 }) (fun w => ⟨rfl, rfl⟩) c hc⟩
    · simp at hs; obtain ⟨rfl, rfl⟩ := hs
      exact ⟨rfl, rfl, rfl, rfl, ⟨[], by simp⟩, fun c _ hc => hc⟩
  | listen d =>
    simp [Watch.step] at hs; obtain ⟨rfl, rfl⟩ := hs
    exact ⟨rfl, rfl, rfl, rfl, ⟨_, rfl⟩, fun c _ hc => hupd d (fun w => { w with refs := w.refs + 1 }) (fun w => ⟨rfl, rfl⟩) c hc⟩
  | unwatch d =>
    simp [Watch.step] at hs; obtain ⟨rfl, rfl⟩ := hs
    exact ⟨rfl, rfl, rfl, rfl, ⟨[], by simp [Watch.upd]⟩, fun c hd hc => hupd2 d _ c hd hc⟩
  | block d b =>
    simp [Watch.step] at hs; obtain ⟨rfl, rfl⟩ := hs
    exact ⟨rfl, rfl, rfl, rfl, ⟨[], by simp [Watch.upd]⟩, fun c _ hc => hupd d (fun w => { w with blocked := b }) (fun w => ⟨rfl, rfl⟩) c hc⟩
  | close d =>
    simp [Watch.step] at hs; obtain ⟨rfl, rfl⟩ := hs
    exact ⟨rfl, rfl, rfl, rfl, ⟨[], by simp [Watch.upd]⟩, fun c hd hc => hupd2 d _ c hd hc⟩
  | stop => simp [Watch.step] at hs; obtain ⟨rfl, rfl⟩ := hs; exact ⟨rfl, rfl, rfl, rfl, ⟨_, rfl⟩, fun c _ hc => hc⟩
  | «foreach» k => simp [Watch.step] at hs; obtain ⟨rfl, rfl⟩ := hs; exact ⟨rfl, rfl, rfl, rfl, ⟨_, rfl⟩, fun c _ hc => hc⟩
  | useBegin m =>
    simp only [Watch.step] at hs
    split at hs
    · simp at hs; obtain ⟨rfl, rfl⟩ := hs; exact ⟨rfl, rfl, rfl, rfl, ⟨_, rfl⟩, fun c _ hc => hc⟩
    · simp at hs; obtain ⟨rfl, rfl⟩ := hs; exact ⟨rfl, rfl, rfl, rfl, ⟨[], by simp⟩, fun c _ hc => hc⟩
  | useSet =>
    simp only [Watch.step] at hs
    split at hs
    · split at hs
      · simp at hs; obtain ⟨rfl, rfl⟩ := hs; exact ⟨rfl, rfl, rfl, rfl, ⟨[], by simp⟩, fun c _ hc => hc⟩
      · simp at hs; obtain ⟨rfl, rfl⟩ := hs; exact ⟨rfl, rfl, rfl, rfl, ⟨[], by simp⟩, fun c _ hc => hc⟩
    · simp at hs; obtain ⟨rfl, rfl⟩ := hs; exact ⟨rfl, rfl, rfl, rfl, ⟨[], by simp⟩, fun c _ hc => hc⟩
  | useEnd =>
    simp only [Watch.step] at hs
    split at hs
    · simp at hs; obtain ⟨rfl, rfl⟩ := hs; exact ⟨rfl, rfl, rfl, rfl, ⟨_, rfl⟩, fun c _ hc => hc⟩
    · simp at hs; obtain ⟨rfl, rfl⟩ := hs; exact ⟨rfl, rfl, rfl, rfl, ⟨[], by simp⟩, fun c _ hc => hc⟩

theorem aux_wa_stopped_step (s : Watch) (op : WatchOp) (t : Watch) (l : List WatchEvent) (h : s.phase = .stopped)
    (hs : s.step op = some (t, l)) : t.phase = .stopped := by
  cases hr : isReaderStep op with
  | true =>
    cases op <;> simp [isReaderStep] at hr
    simp only [Watch.step, Watch.reader, h] at hs
    simp at hs; exact hs.1 ▸ h
  | false => rw [(aux_wa_other s op t l hr hs).1, h]

theorem aux_wa_step_keeps (c : Nat) (s : Watch) (op : WatchOp) (t : Watch) (l : List WatchEvent) (hl : watchLeaves c op)
    (h : aux_wa_flags c s) (hs : s.step op = some (t, l)) :
    t.phase = .stopped ∨ (aux_wa_flags c t ∧ (c ∈ s.conList → c ∈ t.conList) ∧
      (.conn c ∈ s.queue → .conn c ∈ t.queue ∨ c ∈ t.conList) ∧ (aux_wa_place c s → aux_wa_place c t ∨ c ∈ t.conList)) := by
  cases hr : isReaderStep op with
  | true =>
    cases op <;> simp [isReaderStep] at hr
    exact aux_wa_reader_keeps c s _ t l hl h hs
  | false =>
    obtain ⟨g1, g2, _, _, ⟨q, g3⟩, g4⟩ := aux_wa_other s op t l hr hs
    refine .inr ⟨g4 c hl h, fun hm => g2 ▸ hm, fun hm => .inl (by simp [g3, hm]), fun hp => .inl ?_⟩
    have htake : ∀ n x, x ∈ s.queue.take n → x ∈ (s.queue ++ q).take n := by
      intro n x hx
      rw [List.take_append]
      simp [hx]
    unfold aux_wa_place at hp ⊢
    rw [g1, g3]
    split <;> simp_all

/-- A connection handed to the reader stays with it, for every history in which it is neither closed nor taken away and can be
watched; until the reader ends. -/
theorem C65_kept (s t : Watch) (ops : List WatchOp) (log : List WatchEvent) (c : Nat) (hok : (s.conns c).ok = true)
    (hun : (s.conns c).unwatch = false) (hc : .conn c ∈ s.queue ∨ c ∈ s.conList) (hl : ∀ op ∈ ops, watchLeaves c op)
    (hr : s.run ops = some (t, log)) : t.phase = .stopped ∨ .conn c ∈ t.queue ∨ c ∈ t.conList := by
  have := aux_wa_invariant (fun s => s.phase = .stopped ∨ (aux_wa_flags c s ∧ (.conn c ∈ s.queue ∨ c ∈ s.conList)))
    (watchLeaves c) (fun s op t l hp hq hs => by
      rcases hp with hp | ⟨hp, hm⟩
      · exact .inl (aux_wa_stopped_step s op t l hp hs)
      · rcases aux_wa_step_keeps c s op t l hq hp hs with g | ⟨g1, g2, g3, _⟩
        · exact .inl g
        · exact .inr ⟨g1, hm.elim g3 (fun h => .inr (g2 h))⟩) ops s t log (.inr ⟨⟨hok, hun⟩, hc⟩) hl hr
  exact this.imp_right And.right

/-- Connections that wait in the queue when the handlers of a round were called are watched in the next one, whatever else is
in the queue, unless the reader ends. -/
theorem C65_taken (s t : Watch) (ops : List WatchOp) (log : List WatchEvent) (c : Nat) (hp : s.phase = .dispatch [])
    (hok : (s.conns c).ok = true) (hun : (s.conns c).unwatch = false) (hc : .conn c ∈ s.queue)
    (hl : ∀ op ∈ ops, watchLeaves c op) (hr : s.run ops = some (t, log)) :
    t.phase = .stopped ∨ watchTaking t.phase ∨ c ∈ t.conList := by
  have := aux_wa_invariant (fun s => s.phase = .stopped ∨ (aux_wa_flags c s ∧ (aux_wa_place c s ∨ c ∈ s.conList)))
    (watchLeaves c) (fun s op t l hp hq hs => by
      rcases hp with hp | ⟨hp, hm⟩
      · exact .inl (aux_wa_stopped_step s op t l hp hs)
      · rcases aux_wa_step_keeps c s op t l hq hp hs with g | ⟨g1, g2, _, g3⟩
        · exact .inl g
        · exact .inr ⟨g1, hm.elim g3 (fun h => .inr (g2 h))⟩) ops s t log
      (.inr ⟨⟨hok, hun⟩, .inl (by simpa [aux_wa_place, hp] using hc)⟩) hl hr
  rcases this with h | ⟨_, h | h⟩
  · exact .inl h
  · refine .inr (.inl ?_)
    unfold aux_wa_place at h
    unfold watchTaking
    split at h <;> simp_all
  · exact .inr (.inr h)

/-- A connection that can be served and has something to read when the reader looks is served before the reader goes on,
whatever the other threads and the handlers do meanwhile. -/
theorem C65_served (s t : Watch) (e1 e2 : WatchEnv) (ops1 ops2 : List WatchOp) (log : List WatchEvent) (c : Nat)
    (hp : s.phase = .scan) (hc : c ∈ s.srvList ∨ c ∈ s.conList) (hw : watchable (s.conns c)) (hf : e1.full c = false)
    (h1 : ∀ op ∈ ops1, isReaderStep op = false) (hready : e2.ready c = true)
    (hr : s.run (.reader e1 :: ops1 ++ .reader e2 :: ops2) = some (t, log)) (ht : ∀ todo, t.phase ≠ .dispatch todo) :
    .process c ∈ log := by
  obtain ⟨u, l1, l2, hu, hr2, rfl⟩ := (aux_wa_run_append _ _ _ _ _).1 hr
  obtain ⟨u0, l3, l4, hu0, hu1, rfl⟩ := (aux_wa_run_cons _ _ _ _ _).1 hu
  obtain ⟨v, l5, l6, hv, hr3, rfl⟩ := (aux_wa_run_cons _ _ _ _ _).1 hr2
  -- the set built contains it
  have hset : ∃ set, u0.phase = .wait set ∧ c ∈ set := by
    simp only [Watch.step, Watch.reader, hp] at hu0
    split at hu0
    · simp at hu0
    · split at hu0
      · next hemp => rcases hc with hc | hc <;> simp [hemp] at hc
      · simp at hu0; obtain ⟨rfl, _⟩ := hu0
        refine ⟨_, rfl, List.mem_append.2 ?_⟩
        obtain ⟨w1, w2, w3⟩ := hw
        rcases hc with hc | hc
        · exact .inl ((aux_wa_scan_keep e1.full c hf s.srvList s.conns w1 w2 hc).2 w3)
        · have a1 := aux_wa_scan_flags e1.full c s.srvList s.conns
          refine .inr ((aux_wa_scan_keep e1.full c hf s.conList _ ?_ ?_ hc).2 (by rw [a1.2.2]; exact w3))
          · cases hx : ((watchScan e1.full s.srvList s.conns).1 c).ok with
            | true => rfl
            | false => rcases a1.1 hx with x | x <;> simp_all
          · cases hx : ((watchScan e1.full s.srvList s.conns).1 c).unwatch with
            | false => rfl
            | true => have := a1.2.1 hx; simp_all
  obtain ⟨set, hset, hcs⟩ := hset
  have hu2 : u.phase = .wait set := by
    refine aux_wa_invariant (fun s => s.phase = .wait set) (fun op => isReaderStep op = false) ?_ ops1 u0 u l4 hset h1 hu1
    intro s op t l hp hq hs
    rw [(aux_wa_other s op t l hq hs).1, hp]
  have hv2 : ∃ todo, v.phase = .dispatch todo ∧ c ∈ todo := by
    simp only [Watch.step, Watch.reader, hu2] at hv
    split at hv
    · simp at hv
    · simp at hv; obtain ⟨rfl, _⟩ := hv
      exact ⟨_, rfl, List.mem_filter.2 ⟨hcs, hready⟩⟩
  -- it is processed before the handlers are done
  have key : ∀ (ops : List WatchOp) (v t : Watch) (l : List WatchEvent), (∃ todo, v.phase = .dispatch todo ∧ c ∈ todo) →
      v.run ops = some (t, l) → .process c ∈ l ∨ ∃ todo, t.phase = .dispatch todo := by
    intro ops
    induction ops with
    | nil => rintro v t l ⟨todo, hv, _⟩ hr; simp [Watch.run] at hr; exact .inr ⟨todo, by rw [← hr.1, hv]⟩
    | cons op ops ih =>
      rintro v t l ⟨todo, hv, hm⟩ hr
      obtain ⟨w, a, b, ha, hb, rfl⟩ := (aux_wa_run_cons _ _ _ _ _).1 hr
      cases hop : isReaderStep op with
      | false =>
        have := aux_wa_other v op w a hop ha
        rcases ih w t b ⟨todo, by rw [this.1, hv], hm⟩ hb with h | h
        · exact .inl (by simp [h])
        · exact .inr h
      | true =>
        cases op <;> simp [isReaderStep] at hop
        cases todo with
        | nil => simp at hm
        | cons d todo =>
          simp only [Watch.step, Watch.reader, hv] at ha
          simp at ha
          obtain ⟨rfl, rfl⟩ := ha
          rcases List.mem_cons.1 hm with rfl | hm
          · exact .inl (by simp)
          · rcases ih _ t b ⟨todo, rfl, hm⟩ hb with h | h
            · exact .inl (by simp [h])
            · exact .inr h
  rcases key ops2 v t l6 hv2 hr3 with h | ⟨todo, h⟩
  · simp [h]
  · exact absurd h (ht todo)

/-- All connections work and can be watched; these have something to read. -/
def aux_wa_env (ready : List Nat) : WatchOp := .reader ⟨fun _ => false, fun c => ready.contains c⟩
def aux_wa_conns : Nat → WatchConn := fun _ => ⟨true, false, false, 0⟩

/-- A concrete history: a listener and a connection are watched, the connection is served, and the reader ends. -/
example : ((Watch.init aux_wa_conns).run [.listen 1, .watch 2, aux_wa_env [], aux_wa_env [], aux_wa_env [1], aux_wa_env [],
      aux_wa_env [], aux_wa_env [], aux_wa_env [], aux_wa_env [], .stop, aux_wa_env [2], aux_wa_env [], aux_wa_env [], aux_wa_env [],
      aux_wa_env []]).map (fun r => (r.1.phase, (r.1.conns 1).refs, (r.1.conns 2).refs, r.2)) =
    some (.stopped, 0, 0, [.process 1, .process 2, .took, .shut 1, .drop 1, .shut 2, .drop 2, .stopped]) := by decide

/-- A connection that cannot be watched is closed (`C65_left_down`). -/
example : ((Watch.init aux_wa_conns).run [.watch 2, aux_wa_env [], .reader ⟨fun _ => true, fun _ => false⟩]).map
    (fun r => ((r.1.conns 2).ok, r.2)) = some (false, [.shut 2, .drop 2]) := by decide

/-- **Violation**: a connection registered behind the request to end stays open for ever. -/
theorem C65_left_behind : ∃ s log, watchReached s log ∧ s.phase = .stopped ∧ (s.conns 2).refs = 1 ∧ (s.conns 2).ok = true := by
  refine ⟨_, _, ⟨aux_wa_conns, [.stop, .watch 2, aux_wa_env []], rfl⟩, rfl, rfl, rfl⟩

theorem C65_statement_false : ¬ C65_statement := by
  intro h
  obtain ⟨s, log, h1, h2, h3, _⟩ := C65_left_behind
  have := (h s log h1).2.1 h2 2
  omega

/-! ### The end of the reader (C66) -/

/-- A request to end is taken once, the reader does not go on after it, and it keeps nothing at its end. -/
def C66_statement : Prop :=
  ∀ conns ops s log, (Watch.init conns).run ops = some (s, log) →
    (.took ∈ log → watchEnding s.phase) ∧
    log.count .took + s.queue.count .terminate = stopsAsked ops ∧
    (s.phase = .stopped → ∀ c, (s.conns c).refs = 0)

theorem aux_wa_scan_length (full : Nat → Bool) (l : List Nat) : ∀ (f : Nat → WatchConn),
    (watchScan full l f).2.1.length ≤ l.length ∧ (watchScan full l f).2.2.1.length ≤ (watchScan full l f).2.1.length := by
  induction l with
  | nil => intro f; simp [watchScan]
  | cons c l ih =>
    intro f
    unfold watchScan
    dsimp only
    split
    · have := ih (fun d => if d = c then (f c).unref else f d); simp only [List.length_cons]; omega
    · split
      · have := ih (fun d => if d = c then ⟨(f c).unref.ok, false, (f c).unref.blocked, (f c).unref.refs⟩ else f d)
        simp only [List.length_cons]; omega
      · split
        · have := ih f; simp only [List.length_cons]; omega
        · split
          · have := ih (fun d => if d = c then ⟨false, (f c).unref.unwatch, (f c).unref.blocked, (f c).unref.refs⟩ else f d)
            simp only [List.length_cons]; omega
          · have := ih f; simp only [List.length_cons]; omega

theorem aux_wa_register_length (s : Watch) (i : WatchItem) : (s.register i).1.queue = s.queue ∧
    (s.register i).1.conList.length + (s.register i).1.srvList.length ≤ s.conList.length + s.srvList.length + 1 ∧
    (s.register i).1.user = s.user := by
  unfold Watch.register
  split
  · split
    · simp; omega
    · simp [Watch.upd]
  · simp; omega
  · simp

/-- The mechanism is not being changed, and no request to end was taken. -/
def aux_wa_good (s : Watch) : Prop :=
  match s.phase with
  | .first | .scan => True
  | .wait l | .dispatch l => l.length ≤ s.conList.length + s.srvList.length
  | .pending n go => go = true ∧ n ≤ s.queue.length
  | _ => False

def aux_wa_load (s : Watch) : Nat := s.conList.length + s.srvList.length + s.queue.length

/-- How far it is to the next item. -/
def aux_wa_rank (m : Nat) (s : Watch) : Nat :=
  match s.phase with
  | .pending 0 _ => m + 5
  | .scan => m + 4
  | .wait _ => m + 3
  | .dispatch l => l.length + 2
  | _ => 0

theorem aux_wa_rank_le (m : Nat) (s : Watch) (hl : aux_wa_load s ≤ m) (hg : aux_wa_good s) : aux_wa_rank m s ≤ m + 5 := by
  unfold aux_wa_rank
  unfold aux_wa_good at hg
  unfold aux_wa_load at hl
  split <;> simp_all <;> omega

theorem aux_wa_good_reader (m : Nat) (s : Watch) (e : WatchEnv) (t : Watch) (l : List WatchEvent) (hl : aux_wa_load s ≤ m)
    (hg : aux_wa_good s) (h1 : ∀ q, s.queue ≠ .terminate :: q) (h2 : ∀ q, s.queue ≠ .ioChanged :: q)
    (hs : s.reader e = some (t, l)) : aux_wa_good t ∧ aux_wa_load t ≤ m ∧ t.user = s.user ∧
      ((t.queue = s.queue ∧ (s.queue = [] ∨ aux_wa_rank m t < aux_wa_rank m s)) ∨ ∃ i, s.queue = i :: t.queue) := by
  unfold aux_wa_load at hl
  unfold Watch.reader at hs
  split at hs
  · next hp =>
    split at hs
    · next hq => simp at hs; obtain ⟨rfl, _⟩ := hs; exact ⟨hg, hl, rfl, .inl ⟨rfl, .inl hq⟩⟩
    · next q hq => exact absurd hq (h1 q)
    · next q hq => exact absurd hq (h2 q)
    · next k q hq =>
      simp at hs; obtain ⟨rfl, _⟩ := hs
      refine ⟨trivial, ?_, rfl, .inr ⟨_, hq⟩⟩
      rw [hq] at hl; simp [aux_wa_load] at hl ⊢; omega
    · next i q _ _ _ hq =>
      simp at hs; obtain ⟨rfl, _⟩ := hs
      obtain ⟨a1, a2, a3⟩ := aux_wa_register_length { s with queue := q } i
      have hph : ({ s with queue := q }.register i).1.phase = s.phase := by
        unfold Watch.register; split
        · split <;> rfl
        · rfl
        · rfl
      rw [hq] at hl
      simp only [List.length_cons] at hl a1 a2
      split
      · refine ⟨trivial, ?_, a3, .inr ⟨i, by rw [hq]; exact congrArg _ a1.symm⟩⟩
        simp only [aux_wa_load, a1]; omega
      · refine ⟨by unfold aux_wa_good; rw [hph, hp]; trivial, ?_, a3, .inr ⟨i, by rw [hq]; exact congrArg _ a1.symm⟩⟩
        simp only [aux_wa_load, a1]; omega
  · next hp => simp [aux_wa_good, hp] at hg
  · next hp =>
    split at hs
    · simp at hs
    · split at hs
      · simp at hs; obtain ⟨rfl, _⟩ := hs
        exact ⟨trivial, hl, rfl, .inl ⟨rfl, .inr (by simp [aux_wa_rank, hp])⟩⟩
      · simp at hs; obtain ⟨rfl, _⟩ := hs
        have a1 := aux_wa_scan_length e.full s.srvList s.conns
        have a2 := aux_wa_scan_length e.full s.conList (watchScan e.full s.srvList s.conns).1
        refine ⟨?_, ?_, rfl, .inl ⟨rfl, .inr (by simp [aux_wa_rank, hp])⟩⟩
        · simp only [aux_wa_good, List.length_append]; omega
        · simp only [aux_wa_load]; omega
  · next set hp =>
    split at hs
    · simp at hs
    · simp at hs; obtain ⟨rfl, _⟩ := hs
      have := List.length_filter_le e.ready set
      simp only [aux_wa_good, hp] at hg
      refine ⟨by simp only [aux_wa_good]; omega, hl, rfl, .inl ⟨rfl, .inr (by simp only [aux_wa_rank, hp]; omega)⟩⟩
  · next hp =>
    simp at hs; obtain ⟨rfl, _⟩ := hs
    refine ⟨⟨rfl, by simp⟩, hl, rfl, .inl ⟨rfl, ?_⟩⟩
    cases hq : s.queue with
    | nil => exact .inl rfl
    | cons a q => right; simp [aux_wa_rank, hp]
  · next d todo hp =>
    simp at hs; obtain ⟨rfl, _⟩ := hs
    simp only [aux_wa_good, hp, List.length_cons] at hg
    exact ⟨by simp only [aux_wa_good]; omega, hl, rfl, .inl ⟨rfl, .inr (by simp [aux_wa_rank, hp])⟩⟩
  · next go hp =>
    simp only [aux_wa_good, hp] at hg
    rw [if_pos hg.1] at hs
    simp at hs; obtain ⟨rfl, _⟩ := hs
    exact ⟨trivial, hl, rfl, .inl ⟨rfl, .inr (by simp [aux_wa_rank, hp])⟩⟩
  · next n go hp =>
    simp only [aux_wa_good, hp] at hg
    split at hs
    · next hq => simp [hq] at hg
    · next q hq => exact absurd hq (h1 q)
    · next q hq => exact absurd hq (h2 q)
    · next k q hq =>
      simp at hs; obtain ⟨rfl, _⟩ := hs
      rw [hq] at hl hg
      simp only [List.length_cons] at hl hg
      exact ⟨⟨rfl, by simp; omega⟩, by simp only [aux_wa_load]; omega, rfl, .inr ⟨_, hq⟩⟩
    · next i q _ _ _ hq =>
      simp at hs; obtain ⟨rfl, _⟩ := hs
      obtain ⟨a1, a2, a3⟩ := aux_wa_register_length { s with queue := q } i
      rw [hq] at hl hg
      simp only [List.length_cons] at hl hg a1 a2
      refine ⟨⟨rfl, by simp only [a1]; omega⟩, by simp only [aux_wa_load, a1]; omega, a3, .inr ⟨i, by rw [hq]; exact congrArg _ a1.symm⟩⟩
  · next n go hp => simp [aux_wa_good, hp] at hg
  · next hp => simp [aux_wa_good, hp] at hg

/-- Other threads do not change where the reader is. -/
theorem aux_wa_good_other (s : Watch) (op : WatchOp) (t : Watch) (l : List WatchEvent) (hr : isReaderStep op = false)
    (hg : aux_wa_good s) (hs : s.step op = some (t, l)) : aux_wa_good t := by
  obtain ⟨g1, g2, g3, _, ⟨q, g4⟩, _⟩ := aux_wa_other s op t l hr hs
  unfold aux_wa_good at hg ⊢
  rw [g1, g2, g3, g4]
  split <;> simp_all <;> omega

theorem aux_wa_noPush (s : Watch) (op : WatchOp) (t : Watch) (l : List WatchEvent) (hr : isReaderStep op = false)
    (hn : watchNoPush op) (hs : s.step op = some (t, l)) : t.queue = s.queue ∧ t.phase = s.phase ∧ t.conList = s.conList ∧
      t.srvList = s.srvList ∧ l = [] := by
  obtain ⟨g1, g2, g3, g5, _⟩ := aux_wa_other s op t l hr hs
  refine ⟨?_, g1, g2, g3, g5⟩
  cases op <;> simp [watchNoPush, isReaderStep] at hn hr <;> simp [Watch.step] at hs <;> rw [← hs.1] <;> rfl

/-- Before the request to end. -/
def aux_wa_before (s : Watch) : Prop :=
  s.user = .idle ∧ .terminate ∉ s.queue ∧ .ioChanged ∉ s.queue ∧ aux_wa_good s

theorem aux_wa_before_step (s : Watch) (op : WatchOp) (t : Watch) (l : List WatchEvent) (h : aux_wa_before s)
    (hn : watchNoUse op ∧ op ≠ .stop) (hs : s.step op = some (t, l)) : aux_wa_before t := by
  obtain ⟨h1, h2, h3, h4⟩ := h
  cases hr : isReaderStep op with
  | true =>
    cases op <;> simp [isReaderStep] at hr
    obtain ⟨a1, a2, a3, a4⟩ := aux_wa_good_reader (aux_wa_load s) s _ t l (Nat.le_refl _) h4 (fun q hq => by simp [hq] at h2)
      (fun q hq => by simp [hq] at h3) hs
    refine ⟨a3.trans h1, ?_, ?_, a1⟩
    · rcases a4 with ⟨e, _⟩ | ⟨i, e⟩
      · rw [e]; exact h2
      · intro hm; exact h2 (by rw [e]; exact List.mem_cons_of_mem _ hm)
    · rcases a4 with ⟨e, _⟩ | ⟨i, e⟩
      · rw [e]; exact h3
      · intro hm; exact h3 (by rw [e]; exact List.mem_cons_of_mem _ hm)
  | false =>
    have hg := aux_wa_good_other s op t l hr h4 hs
    cases op with
    | reader e => simp [isReaderStep] at hr
    | watch d =>
      simp only [Watch.step] at hs
      split at hs
      · simp at hs; obtain ⟨rfl, rfl⟩ := hs
        exact ⟨h1, by simpa [Watch.push, Watch.upd] using h2, by simpa [Watch.push, Watch.upd] using h3, hg⟩
      · simp at hs; obtain ⟨rfl, rfl⟩ := hs; exact ⟨h1, h2, h3, hg⟩
    | listen d =>
      simp [Watch.step] at hs; obtain ⟨rfl, rfl⟩ := hs
      exact ⟨h1, by simpa [Watch.push, Watch.upd] using h2, by simpa [Watch.push, Watch.upd] using h3, hg⟩
    | unwatch d => simp [Watch.step] at hs; obtain ⟨rfl, rfl⟩ := hs; exact ⟨h1, h2, h3, hg⟩
    | block d b => simp [Watch.step] at hs; obtain ⟨rfl, rfl⟩ := hs; exact ⟨h1, h2, h3, hg⟩
    | close d => simp [Watch.step] at hs; obtain ⟨rfl, rfl⟩ := hs; exact ⟨h1, h2, h3, hg⟩
    | stop => simp at hn
    | «foreach» k =>
      simp [Watch.step] at hs; obtain ⟨rfl, rfl⟩ := hs
      exact ⟨h1, by simpa [Watch.push] using h2, by simpa [Watch.push] using h3, hg⟩
    | useBegin m => simp [watchNoUse] at hn
    | useSet => simp [Watch.step, h1] at hs; obtain ⟨rfl, rfl⟩ := hs; exact ⟨h1, h2, h3, hg⟩
    | useEnd => simp [Watch.step, h1] at hs; obtain ⟨rfl, rfl⟩ := hs; exact ⟨h1, h2, h3, hg⟩

/-- After the request to end, with nothing behind it. -/
def aux_wa_after (s : Watch) : Prop :=
  (s.phase = .stopped ∧ s.queue = [] ∧ s.conList = [] ∧ s.srvList = []) ∨ (s.phase = .pending 0 false ∧ s.queue = []) ∨
  ∃ q, s.queue = q ++ [.terminate] ∧ .terminate ∉ q ∧ .ioChanged ∉ q ∧ aux_wa_good s

def aux_wa_left (m : Nat) (s : Watch) : Nat :=
  match s.phase with
  | .stopped => 0
  | _ => 1 + s.queue.length * (m + 6) + aux_wa_rank m s

theorem aux_wa_after_reader (m : Nat) (s : Watch) (e : WatchEnv) (t : Watch) (l : List WatchEvent) (hl : aux_wa_load s ≤ m)
    (h : aux_wa_after s) (hs : s.reader e = some (t, l)) :
    aux_wa_after t ∧ aux_wa_load t ≤ m ∧ (aux_wa_left m t < aux_wa_left m s ∨ aux_wa_left m s = 0) := by
  rcases h with ⟨hp, hq⟩ | ⟨hp, hq⟩ | ⟨q, hq, h1, h2, hg⟩
  · simp only [Watch.reader, hp] at hs
    simp at hs; obtain ⟨rfl, _⟩ := hs
    exact ⟨.inl ⟨hp, hq⟩, hl, .inr (by simp [aux_wa_left, hp])⟩
  · simp only [Watch.reader, hp] at hs
    simp [Watch.stopProcess] at hs; obtain ⟨rfl, _⟩ := hs
    exact ⟨.inl ⟨rfl, hq, rfl, rfl⟩, by simp [aux_wa_load, hq], .inl (by simp [aux_wa_left, hp]; omega)⟩
  · have hns : s.phase ≠ .stopped := by rintro hp; simp [aux_wa_good, hp] at hg
    have hleft : aux_wa_left m s = 1 + s.queue.length * (m + 6) + aux_wa_rank m s := by
      unfold aux_wa_left; split
      · next hp => exact absurd hp hns
      · rfl
    have hlt : ∀ u : Watch, u.phase ≠ .stopped → aux_wa_left m u = 1 + u.queue.length * (m + 6) + aux_wa_rank m u := by
      intro u hu
      unfold aux_wa_left; split
      · next hp => exact absurd hp hu
      · rfl
    cases q with
    | nil =>
      simp only [List.nil_append] at hq
      by_cases hf : s.phase = .first
      · simp only [Watch.reader, hf, hq] at hs
        simp [Watch.stopProcess] at hs; obtain ⟨rfl, _⟩ := hs
        refine ⟨.inl ⟨rfl, rfl, rfl, rfl⟩, by simp [aux_wa_load], .inl ?_⟩
        rw [hleft]; simp [aux_wa_left]; omega
      · by_cases hpe : ∃ n go, s.phase = .pending (n + 1) go
        · obtain ⟨n, go, hpe⟩ := hpe
          simp only [Watch.reader, hpe, hq] at hs
          simp at hs; obtain ⟨rfl, _⟩ := hs
          simp only [aux_wa_good, hpe, hq, List.length_cons, List.length_nil] at hg
          have hn : n = 0 := by omega
          subst hn
          refine ⟨.inr (.inl ⟨rfl, rfl⟩), ?_, .inl ?_⟩
          · simp only [aux_wa_load, List.length_nil] at hl ⊢; omega
          · rw [hleft, hlt _ (by simp)]
            simp only [aux_wa_rank, hq, hpe, List.length_nil, List.length_cons]
            omega
        · -- the queue is not read
          have key : aux_wa_good t ∧ aux_wa_load t ≤ m ∧ t.queue = s.queue ∧ aux_wa_rank m t < aux_wa_rank m s := by
            have hs' : { s with queue := [.ioReady] }.reader e = some ({ t with queue := [.ioReady] }, l) ∧ t.queue = s.queue := by
              unfold Watch.reader at hs ⊢
              cases hph : s.phase with
              | first => exact absurd hph hf
              | firstChange => simp [aux_wa_good, hph] at hg
              | scan =>
                simp only [hph] at hs ⊢
                split at hs
                · simp at hs
                · next hgr =>
                  rw [if_neg hgr]
                  split at hs
                  · next he => rw [if_pos he]; simp at hs; obtain ⟨rfl, rfl⟩ := hs; exact ⟨rfl, rfl⟩
                  · next he => rw [if_neg he]; simp at hs; obtain ⟨rfl, rfl⟩ := hs; exact ⟨rfl, rfl⟩
              | wait set =>
                simp only [hph] at hs ⊢
                split at hs
                · simp at hs
                · next hgr => rw [if_neg hgr]; simp at hs; obtain ⟨rfl, rfl⟩ := hs; exact ⟨rfl, rfl⟩
              | dispatch todo =>
                cases todo with
                | nil => simp only [hph] at hs ⊢; simp at hs; obtain ⟨rfl, rfl⟩ := hs; exact ⟨by simp [hq], rfl⟩
                | cons d todo => simp only [hph] at hs ⊢; simp at hs; obtain ⟨rfl, rfl⟩ := hs; exact ⟨rfl, rfl⟩
              | pending n go =>
                cases n with
                | succ n => exact absurd ⟨n, go, hph⟩ hpe
                | zero =>
                  simp only [aux_wa_good, hph] at hg
                  simp only [hph] at hs ⊢
                  rw [if_pos hg.1] at hs ⊢
                  simp at hs; obtain ⟨rfl, rfl⟩ := hs; exact ⟨rfl, rfl⟩
              | change n go => simp [aux_wa_good, hph] at hg
              | stopped => exact absurd hph hns
            have hg' : aux_wa_good { s with queue := [.ioReady] } := by
              unfold aux_wa_good at hg ⊢
              simp only [hq] at hg
              exact hg
            have hl' : aux_wa_load { s with queue := [.ioReady] } ≤ m := by simpa [aux_wa_load, hq] using hl
            obtain ⟨a1, a2, _, a3⟩ := aux_wa_good_reader m _ e _ l hl' hg' (by simp) (by simp) hs'.1
            have hqt : t.queue = [.terminate] := hs'.2.trans hq
            refine ⟨?_, ?_, hs'.2, ?_⟩
            · unfold aux_wa_good at a1 ⊢; simpa [hqt] using a1
            · simpa [aux_wa_load, hqt] using a2
            · rcases a3 with ⟨_, a3 | a3⟩ | ⟨i, a3⟩
              · simp at a3
              · exact a3
              · simp at a3
          obtain ⟨k1, k2, k3, k4⟩ := key
          refine ⟨.inr (.inr ⟨[], by simpa [hq] using k3, by simp, by simp, k1⟩), k2, .inl ?_⟩
          have hnt : t.phase ≠ .stopped := by rintro hp; simp [aux_wa_good, hp] at k1
          rw [hleft, hlt t hnt, k3]; omega
    | cons i q =>
      obtain ⟨a1, a2, _, a3⟩ := aux_wa_good_reader m s e t l hl hg
        (fun r hr => by rw [hq] at hr; simp at hr; exact h1 (by simp [hr.1]))
        (fun r hr => by rw [hq] at hr; simp at hr; exact h2 (by simp [hr.1])) hs
      have hnt : t.phase ≠ .stopped := by rintro hp; simp [aux_wa_good, hp] at a1
      rcases a3 with ⟨a3, a4⟩ | ⟨j, a3⟩
      · refine ⟨.inr (.inr ⟨i :: q, a3.trans hq, h1, h2, a1⟩), a2, .inl ?_⟩
        rcases a4 with a4 | a4
        · simp [hq] at a4
        · rw [hleft, hlt t hnt, a3]; omega
      · have hj : i = j ∧ q ++ [.terminate] = t.queue := by rw [hq] at a3; simpa using a3
        refine ⟨.inr (.inr ⟨q, hj.2.symm, fun h => h1 (by simp [h]), fun h => h2 (by simp [h]), a1⟩), a2, .inl ?_⟩
        have := aux_wa_rank_le m t a2 a1
        rw [hleft, hlt t hnt, a3, List.length_cons, Nat.add_mul]; omega

theorem aux_wa_after_step (m : Nat) (s : Watch) (op : WatchOp) (t : Watch) (l : List WatchEvent) (hl : aux_wa_load s ≤ m)
    (hn : watchNoPush op) (h : aux_wa_after s) (hs : s.step op = some (t, l)) :
    aux_wa_after t ∧ aux_wa_load t ≤ m ∧ aux_wa_left m t + (if isReaderStep op then 1 else 0) ≤ max (aux_wa_left m s) 1 ∧
      aux_wa_left m t ≤ aux_wa_left m s := by
  cases hr : isReaderStep op with
  | true =>
    cases op <;> simp [isReaderStep] at hr
    obtain ⟨a, b, c⟩ := aux_wa_after_reader m s _ t l hl h hs
    refine ⟨a, b, ?_⟩
    rcases c with c | c
    · simp; omega
    · have hp : s.phase = .stopped := by
        unfold aux_wa_left at c
        split at c
        · assumption
        · omega
      have := aux_wa_stopped_step s _ t l hp hs
      have hz : aux_wa_left m t = 0 := by simp [aux_wa_left, this]
      rw [hz]; simp; omega
  | false =>
    obtain ⟨a1, a2, a3, a4, _⟩ := aux_wa_noPush s op t l hr hn hs
    have e1 : aux_wa_left m t = aux_wa_left m s := by simp only [aux_wa_left, aux_wa_rank, a1, a2]
    refine ⟨?_, by simpa only [aux_wa_load, a1, a3, a4] using hl, by simp [e1]; omega, by omega⟩
    unfold aux_wa_after at h ⊢
    rw [a1, a2, a3, a4]
    rcases h with h | h | ⟨q, h1, h2, h3, h4⟩
    · exact .inl h
    · exact .inr (.inl h)
    · exact .inr (.inr ⟨q, h1, h2, h3, aux_wa_good_other s op t l hr h4 hs⟩)

theorem aux_wa_after_run (m : Nat) (ops : List WatchOp) : ∀ (s t : Watch) (l : List WatchEvent), aux_wa_load s ≤ m →
    (∀ op ∈ ops, watchNoPush op) → aux_wa_after s → s.run ops = some (t, l) →
    aux_wa_after t ∧ (aux_wa_left m s ≤ ops.countP isReaderStep → t.phase = .stopped) := by
  induction ops with
  | nil =>
    intro s t l _ _ h hr
    simp [Watch.run] at hr; obtain ⟨rfl, _⟩ := hr
    refine ⟨h, fun hz => ?_⟩
    simp at hz
    unfold aux_wa_left at hz
    split at hz
    · assumption
    · omega
  | cons op ops ih =>
    intro s t l hl hn h hr
    obtain ⟨u, l1, l2, hu, hr2, rfl⟩ := (aux_wa_run_cons _ _ _ _ _).1 hr
    obtain ⟨a, b, c, d⟩ := aux_wa_after_step m s op u l1 hl (hn op (by simp)) h hu
    obtain ⟨g1, g2⟩ := ih u t l2 b (fun o ho => hn o (by simp [ho])) a hr2
    refine ⟨g1, fun hz => g2 ?_⟩
    rw [List.countP_cons] at hz
    split at c <;> simp_all <;> omega

theorem aux_wa_stopped_event (s : Watch) (op : WatchOp) (t : Watch) (l : List WatchEvent) (h : s.phase ≠ .stopped)
    (ht : t.phase = .stopped) (hs : s.step op = some (t, l)) : .stopped ∈ l := by
  cases hr : isReaderStep op with
  | false => rw [(aux_wa_other s op t l hr hs).1] at ht; exact absurd ht h
  | true =>
    cases op <;> simp [isReaderStep] at hr
    have hreg : ∀ (u : Watch) (i : WatchItem), (u.register i).1.phase = u.phase := by
      intro u i; unfold Watch.register; split
      · split <;> rfl
      · rfl
      · rfl
    simp only [Watch.step] at hs
    unfold Watch.reader at hs
    split at hs <;> (try split at hs) <;> (try split at hs) <;> simp [Watch.stopProcess] at hs <;>
      obtain ⟨rfl, rfl⟩ := hs <;> (try simp at ht) <;> (try simp) <;> (try simp_all)
    all_goals (try split at ht) <;> simp_all

theorem aux_wa_stopped_run (ops : List WatchOp) : ∀ (s t : Watch) (l : List WatchEvent), s.phase ≠ .stopped →
    t.phase = .stopped → s.run ops = some (t, l) → .stopped ∈ l := by
  induction ops with
  | nil => intro s t l h ht hr; simp [Watch.run] at hr; exact absurd (hr.1 ▸ ht) h
  | cons op ops ih =>
    intro s t l h ht hr
    obtain ⟨u, l1, l2, hu, hr2, rfl⟩ := (aux_wa_run_cons _ _ _ _ _).1 hr
    by_cases hp : u.phase = .stopped
    · simp [aux_wa_stopped_event s op u l1 h hp hu]
    · simp [ih u t l2 hp ht hr2]

/-- When a request to end is the last thing handed to the reader, and the mechanism was never changed, then after a bounded
number of its steps the reader ended, whatever the connections do, and keeps no reference. What is missing: `C66_stop_lost`,
`C66_swallowed` and `C66_left_behind` show histories where it does not, or keeps some. -/
theorem C66_stops_partial (conns : Nat → WatchConn) (ops : List WatchOp) (s : Watch) (log : List WatchEvent)
    (hr : (Watch.init conns).run ops = some (s, log)) (hn : ∀ op ∈ ops, watchNoUse op ∧ op ≠ .stop) :
    ∃ bound, ∀ ops' t log', (∀ op ∈ ops', watchNoPush op) → bound ≤ ops'.countP isReaderStep →
      s.run (.stop :: ops') = some (t, log') → t.phase = .stopped ∧ .stopped ∈ log' ∧ ∀ c, (t.conns c).refs = 0 := by
  have hb : aux_wa_before s := aux_wa_invariant aux_wa_before _ aux_wa_before_step ops _ s log
    ⟨rfl, by simp [Watch.init], by simp [Watch.init], by simp [aux_wa_good, Watch.init]⟩ hn hr
  refine ⟨aux_wa_left (aux_wa_load s + 1) (s.push .terminate), ?_⟩
  intro ops' t log' hn' hk hr'
  obtain ⟨u, l1, l2, hu, hr2, rfl⟩ := (aux_wa_run_cons _ _ _ _ _).1 hr'
  have hu' : u = s.push .terminate ∧ l1 = [] := by simp [Watch.step] at hu; exact ⟨hu.1.symm, hu.2⟩
  have hgood : aux_wa_good u := aux_wa_good_other s .stop u l1 rfl hb.2.2.2 hu
  obtain ⟨rfl, rfl⟩ := hu'
  obtain ⟨a1, a2⟩ := aux_wa_after_run (aux_wa_load s + 1) ops' _ t l2
    (by simp [aux_wa_load, Watch.push]; omega) hn' (.inr (.inr ⟨s.queue, rfl, hb.2.1, hb.2.2.1, hgood⟩)) hr2
  have hp := a2 hk
  have hreach : watchReached t (log ++ ([] ++ l2)) := ⟨conns, ops ++ .stop :: ops', (aux_wa_run_append _ _ _ _ _).2
    ⟨s, log, [] ++ l2, hr, hr', rfl⟩⟩
  refine ⟨hp, ?_, ?_⟩
  · have hns : (s.push .terminate).phase ≠ .stopped := by rintro hp; simp [aux_wa_good, hp] at hgood
    simpa using aux_wa_stopped_run ops' _ t l2 hns hp hr2
  · intro c
    rw [aux_wa_owned_reached t _ hreach c]
    rcases a1 with ⟨_, b1, b2, b3⟩ | ⟨b, _⟩ | ⟨q, _, _, _, hg⟩
    · simp [watchHeld, b1, b2, b3]
    · simp [hp] at b
    · simp [aux_wa_good, hp] at hg

/-- A concrete case: with a listener and a connection, one of which is ready, the bound is met. -/
example : ((Watch.init aux_wa_conns).run ([.listen 1, .watch 2, aux_wa_env [], aux_wa_env []] ++ .stop ::
      [aux_wa_env [1], aux_wa_env [], aux_wa_env [], aux_wa_env [], aux_wa_env [], .close 2, aux_wa_env []])).map
      (fun r => (r.1.phase, (r.1.conns 1).refs, (r.1.conns 2).refs, r.2.count .stopped)) = some (.stopped, 0, 0, 1) := by decide

theorem aux_wa_register_user (s : Watch) (i : WatchItem) : (s.register i).1.user = s.user ∧ (s.register i).1.tokens = s.tokens ∧
    (s.register i).1.phase = s.phase := by
  unfold Watch.register
  split
  · split <;> simp [Watch.upd]
  · simp
  · simp

/-- When the mechanism is never changed, a reader that ended left its notification for the thread that asked. -/
theorem C66_notified_partial (conns : Nat → WatchConn) (ops : List WatchOp) (s : Watch) (log : List WatchEvent)
    (hr : (Watch.init conns).run ops = some (s, log)) (hn : ∀ op ∈ ops, watchNoUse op) (hp : s.phase = .stopped) : 0 < s.tokens := by
  refine (aux_wa_invariant (fun s => s.user = .idle ∧ (s.phase = .stopped → 0 < s.tokens)) watchNoUse ?_ ops _ s log
    ⟨rfl, by simp [Watch.init]⟩ hn hr).2 hp
  rintro s op t l ⟨h1, h2⟩ hq hs
  cases op with
  | reader e =>
    simp only [Watch.step] at hs
    unfold Watch.reader at hs
    have hreg := fun (s : Watch) i => aux_wa_register_user s i
    (repeat' split at hs) <;> simp_all [Watch.stopProcess] <;>
      (obtain ⟨rfl, _⟩ := hs) <;> (try split) <;> simp_all [Watch.stopProcess]
  | useBegin m => exact absurd hq (by simp [watchNoUse])
  | useSet => simp [Watch.step, h1] at hs; obtain ⟨rfl, _⟩ := hs; exact ⟨h1, h2⟩
  | useEnd => simp [Watch.step, h1] at hs; obtain ⟨rfl, _⟩ := hs; exact ⟨h1, h2⟩
  | watch c => simp only [Watch.step] at hs; split at hs <;> (simp at hs; obtain ⟨rfl, _⟩ := hs; exact ⟨h1, h2⟩)
  | listen c => simp [Watch.step] at hs; obtain ⟨rfl, _⟩ := hs; exact ⟨h1, h2⟩
  | unwatch c => simp [Watch.step] at hs; obtain ⟨rfl, _⟩ := hs; exact ⟨h1, h2⟩
  | block c b => simp [Watch.step] at hs; obtain ⟨rfl, _⟩ := hs; exact ⟨h1, h2⟩
  | close c => simp [Watch.step] at hs; obtain ⟨rfl, _⟩ := hs; exact ⟨h1, h2⟩
  | stop => simp [Watch.step] at hs; obtain ⟨rfl, _⟩ := hs; exact ⟨h1, h2⟩
  | «foreach» k => simp [Watch.step] at hs; obtain ⟨rfl, _⟩ := hs; exact ⟨h1, h2⟩

example : ((Watch.init aux_wa_conns).run [.listen 1, aux_wa_env [], .stop, aux_wa_env [], aux_wa_env [], aux_wa_env [], aux_wa_env [],
    aux_wa_env []]).map (fun r => (r.1.phase, r.1.tokens)) = some (.stopped, 1) := by decide

/-- **Violation**: a connection registered behind the request to end makes the reader forget the request. A remote peer that
connects while the listener is told to end is enough. The thread that asked waits for 60 seconds and then frees the context
(src/vortex_reader.c:1663-1690, src/vortex.c:1185, 1286). -/
theorem C66_stop_lost : ∃ conns s log, (Watch.init conns).run [.listen 1, aux_wa_env [], aux_wa_env [], .stop, aux_wa_env [1],
      aux_wa_env [], .watch 2, aux_wa_env [], aux_wa_env [], aux_wa_env [], aux_wa_env []] = some (s, log) ∧
    .took ∈ log ∧ s.phase = .scan ∧ s.queue = [] :=
  ⟨aux_wa_conns, _, _, rfl, by decide, rfl, rfl⟩

/-- **Violation**: a request to end that comes while the mechanism is changed is dropped. -/
theorem C66_swallowed : ∃ conns s log, (Watch.init conns).run [.listen 1, aux_wa_env [], aux_wa_env [], .useBegin 1, aux_wa_env [],
      aux_wa_env [], aux_wa_env [], .useSet, .stop, aux_wa_env [], .useEnd, aux_wa_env []] = some (s, log) ∧
    .took ∉ log ∧ s.phase = .scan ∧ .terminate ∉ s.queue :=
  ⟨aux_wa_conns, _, _, rfl, by decide, rfl, by decide⟩

/-- **Violation**: what is registered behind the request is not released. -/
theorem C66_left_behind : ∃ conns s log, (Watch.init conns).run [.stop, .watch 2, aux_wa_env []] = some (s, log) ∧
    s.phase = .stopped ∧ (s.conns 2).refs = 1 :=
  ⟨aux_wa_conns, _, _, rfl, rfl, rfl⟩

theorem C66_statement_false : ¬ C66_statement := by
  intro h
  obtain ⟨conns, s, log, h1, h2, h3, _⟩ := C66_stop_lost
  have := (h conns _ s log h1).1 h2
  simp [watchEnding, h3] at this

/-! ### Visiting all connections (C67) -/

/-- Every request to visit all connections is answered once, after the handler was called for each connection that is watched
and works; and none is left when the reader ended. -/
def C67_statement : Prop :=
  ∀ conns ops s log, (Watch.init conns).run ops = some (s, log) →
    (∀ k, log.count (.done k) + s.queue.count (.foreach k) = foreachAsked k ops) ∧
    (s.phase = .stopped → ∀ k, .foreach k ∉ s.queue) ∧
    ∀ op t l, s.step op = some (t, l) → ∀ k, (∀ c, .visit k c ∈ l → .done k ∈ l) ∧
      (.done k ∈ l → ∀ c, l.count (.visit k c) = if (s.conns c).ok then s.conList.count c + s.srvList.count c else 0)

/-- The events of a step that are about visits. -/
theorem aux_wa_foreach_events (s : Watch) (op : WatchOp) (t : Watch) (l : List WatchEvent) (hs : s.step op = some (t, l)) :
    (∃ k q, s.queue = .foreach k :: q ∧ t.queue = q ∧ l = s.foreachImpl k ∧ isReaderStep op = true ∧
      ((∃ n go, s.phase = .pending (n + 1) go) ∨ s.phase = .first)) ∨
    ((∀ k, .done k ∉ l) ∧ (∀ k c, .visit k c ∉ l)) := by
  cases hr : isReaderStep op with
  | false => right; rw [(aux_wa_other s op t l hr hs).2.2.2.1]; simp
  | true =>
    cases op <;> simp [isReaderStep] at hr
    have hreg : ∀ (u : Watch) (i : WatchItem), (∀ k, .done k ∉ (u.register i).2.2) ∧ (∀ k c, .visit k c ∉ (u.register i).2.2) := by
      intro u i; unfold Watch.register; split
      · split <;> simp
      · simp
      · simp
    have hclose : ∀ (ls : List Nat) (f : Nat → WatchConn), (∀ k, .done k ∉ (watchClose ls f).2) ∧ (∀ k c, .visit k c ∉ (watchClose ls f).2) := by
      intro ls
      induction ls with
      | nil => intro f; simp [watchClose]
      | cons d ls ih => intro f; unfold watchClose; simpa using ih _
    have hscan : ∀ (full : Nat → Bool) (ls : List Nat) (f : Nat → WatchConn), (∀ k, .done k ∉ (watchScan full ls f).2.2.2) ∧
        (∀ k c, .visit k c ∉ (watchScan full ls f).2.2.2) := by
      intro full ls
      induction ls with
      | nil => intro f; simp [watchScan]
      | cons d ls ih =>
        intro f; unfold watchScan; dsimp only
        split
        · simpa using ih _
        · split
          · simpa using ih _
          · split
            · simpa using ih _
            · split
              · simpa using ih _
              · simpa using ih _
    simp only [Watch.step] at hs
    unfold Watch.reader at hs
    split at hs
    · next hp =>
      split at hs
      · simp at hs; obtain ⟨rfl, rfl⟩ := hs; simp
      · simp [Watch.stopProcess] at hs; obtain ⟨rfl, rfl⟩ := hs; right; simp [hclose]
      · split at hs
        · simp at hs; obtain ⟨rfl, rfl⟩ := hs; simp
        · simp at hs
      · next k q hq => simp at hs; obtain ⟨rfl, rfl⟩ := hs; exact .inl ⟨k, q, hq, rfl, rfl, rfl, .inr hp⟩
      · simp at hs; obtain ⟨rfl, rfl⟩ := hs; exact .inr (hreg _ _)
    · split at hs
      · simp at hs; obtain ⟨rfl, rfl⟩ := hs; simp
      · simp at hs; obtain ⟨rfl, rfl⟩ := hs; exact .inr (hreg _ _)
    · split at hs
      · simp at hs
      · split at hs
        · simp at hs; obtain ⟨rfl, rfl⟩ := hs; simp
        · simp at hs; obtain ⟨rfl, rfl⟩ := hs; right; simp [hscan]
    · split at hs
      · simp at hs
      · simp at hs; obtain ⟨rfl, rfl⟩ := hs; simp
    · simp at hs; obtain ⟨rfl, rfl⟩ := hs; simp
    · simp at hs; obtain ⟨rfl, rfl⟩ := hs; simp
    · split at hs
      · simp at hs; obtain ⟨rfl, rfl⟩ := hs; simp
      · simp [Watch.stopProcess] at hs; obtain ⟨rfl, rfl⟩ := hs; right; simp [hclose]
    · next n go hp =>
      split at hs
      · simp at hs; obtain ⟨rfl, rfl⟩ := hs; simp
      · simp at hs; obtain ⟨rfl, rfl⟩ := hs; simp
      · split at hs
        · simp at hs; obtain ⟨rfl, rfl⟩ := hs; simp
        · simp at hs
      · next k q hq => simp at hs; obtain ⟨rfl, rfl⟩ := hs; exact .inl ⟨k, q, hq, rfl, rfl, rfl, .inl ⟨n, go, hp⟩⟩
      · simp at hs; obtain ⟨rfl, rfl⟩ := hs; exact .inr (hreg _ _)
    · split at hs
      · simp at hs; obtain ⟨rfl, rfl⟩ := hs; simp
      · simp at hs; obtain ⟨rfl, rfl⟩ := hs; exact .inr (hreg _ _)
    · simp at hs; obtain ⟨rfl, rfl⟩ := hs; simp

theorem aux_wa_visit_count (f : Nat → WatchConn) (k c : Nat) (l : List Nat) :
    ((l.filter fun d => (f d).ok).map (WatchEvent.visit k)).count (.visit k c) = if (f c).ok then l.count c else 0 := by
  induction l with
  | nil => simp
  | cons d l ih =>
    by_cases hd : (f d).ok = true
    · rw [List.filter_cons_of_pos (by simpa using hd), List.map_cons, List.count_cons, ih, List.count_cons]
      by_cases hdc : d = c
      · subst hdc; simp [hd]
      · simp [hdc]
    · rw [List.filter_cons_of_neg (by simpa using hd), ih, List.count_cons]
      by_cases hdc : d = c
      · subst hdc; simp [hd]
      · simp [hdc]

/-- The handler is called for the connections and listeners watched that work, once for each time they are registered, and for
no others; and then the caller is notified. -/
theorem C67_visits (s : Watch) (op : WatchOp) (t : Watch) (l : List WatchEvent) (hs : s.step op = some (t, l)) (k : Nat) :
    (∀ c, .visit k c ∈ l → .done k ∈ l) ∧ l.count (.done k) ≤ 1 ∧
    (.done k ∈ l → ∀ c, l.count (.visit k c) = if (s.conns c).ok then s.conList.count c + s.srvList.count c else 0) := by
  rcases aux_wa_foreach_events s op t l hs with ⟨j, q, _, _, rfl, _⟩ | ⟨h1, h2⟩
  · have hd : ∀ ls : List Nat, (ls.map (WatchEvent.visit j)).count (.done k) = 0 := by
      intro ls; exact List.count_eq_zero.2 (by simp)
    refine ⟨fun c hc => ?_, ?_, fun hk c => ?_⟩
    · simp [Watch.foreachImpl] at hc ⊢; rcases hc with ⟨_, rfl⟩ | ⟨_, rfl⟩ <;> rfl
    · simp only [Watch.foreachImpl, List.count_append, hd, List.count_cons, List.count_nil]; split <;> omega
    · have hk : k = j := by simpa [Watch.foreachImpl] using hk
      subst hk
      simp only [Watch.foreachImpl, List.count_append, aux_wa_visit_count]
      have : List.count (WatchEvent.visit k c) [.done k] = 0 := by simp
      rw [this]; split <;> omega
  · exact ⟨fun c hc => absurd hc (h2 k c), by rw [List.count_eq_zero.2 (h1 k)]; omega, fun hk => absurd hk (h1 k)⟩

/-- The mechanism is not being changed. -/
def aux_wa_plain (s : Watch) : Prop :=
  s.user = .idle ∧ .ioChanged ∉ s.queue ∧ s.phase ≠ .firstChange ∧ ∀ n go, s.phase ≠ .change n go

theorem aux_wa_plain_reader (s : Watch) (e : WatchEnv) (t : Watch) (l : List WatchEvent) (h : aux_wa_plain s)
    (hs : s.reader e = some (t, l)) : aux_wa_plain t ∧
      ((t.queue = s.queue ∧ .took ∉ l ∧ ∀ k, .done k ∉ l) ∨
       ∃ i, s.queue = i :: t.queue ∧ l.count .took = (if i = .terminate then 1 else 0) ∧
         ∀ k, l.count (.done k) = if i = .foreach k then 1 else 0) := by
  obtain ⟨h1, h2, h3, h4⟩ := h
  have hreg : ∀ (u : Watch) (i : WatchItem), (u.register i).1.queue = u.queue ∧ (u.register i).1.user = u.user ∧
      (u.register i).1.phase = u.phase ∧ .took ∉ (u.register i).2.2 ∧ ∀ k, .done k ∉ (u.register i).2.2 := by
    intro u i; unfold Watch.register; split
    · split <;> simp [Watch.upd]
    · simp
    · simp
  have hclose : ∀ (ls : List Nat) (f : Nat → WatchConn), .took ∉ (watchClose ls f).2 ∧ ∀ k, .done k ∉ (watchClose ls f).2 := by
    intro ls
    induction ls with
    | nil => intro f; simp [watchClose]
    | cons d ls ih => intro f; unfold watchClose; simpa using ih _
  have hscan : ∀ (full : Nat → Bool) (ls : List Nat) (f : Nat → WatchConn), .took ∉ (watchScan full ls f).2.2.2 ∧
      (∀ k, .done k ∉ (watchScan full ls f).2.2.2) := by
    intro full ls
    induction ls with
    | nil => intro f; simp [watchScan]
    | cons d ls ih =>
      intro f; unfold watchScan; dsimp only
      split
      · simpa using ih _
      · split
        · simpa using ih _
        · split
          · simpa using ih _
          · split
            · simpa using ih _
            · simpa using ih _
  have hstop : .took ∉ s.stopProcess.2 ∧ ∀ k, .done k ∉ s.stopProcess.2 := by simp [Watch.stopProcess, hclose]
  have hev : ∀ k, (s.foreachImpl k).count .took = 0 ∧ ∀ j, (s.foreachImpl k).count (.done j) = if k = j then 1 else 0 := by
    intro k
    refine ⟨List.count_eq_zero.2 (by simp [Watch.foreachImpl]), fun j => ?_⟩
    have hd : ∀ ls : List Nat, (ls.map (WatchEvent.visit k)).count (.done j) = 0 := by
      intro ls; exact List.count_eq_zero.2 (by simp)
    simp only [Watch.foreachImpl, List.count_append, hd, List.count_cons, List.count_nil]
    by_cases hkj : k = j <;> simp [hkj]
  have htail : ∀ i q, s.queue = i :: q → .ioChanged ∉ q := fun i q hq hm => h2 (by rw [hq]; exact List.mem_cons_of_mem _ hm)
  unfold Watch.reader at hs
  split at hs
  · next hp =>
    split at hs
    · simp at hs; obtain ⟨rfl, rfl⟩ := hs; exact ⟨⟨h1, h2, h3, h4⟩, .inl ⟨rfl, by simp, by simp⟩⟩
    · next q hq =>
      simp only [Option.some.injEq, Prod.mk.injEq] at hs
      obtain ⟨rfl, rfl⟩ := hs
      refine ⟨⟨h1, htail _ _ hq, by simp [Watch.stopProcess], by simp [Watch.stopProcess]⟩, .inr ⟨_, hq, ?_, fun k => ?_⟩⟩
      · have := List.count_eq_zero.2 hstop.1
        simpa [Watch.stopProcess] using this
      · have := List.count_eq_zero.2 (hstop.2 k)
        simpa [Watch.stopProcess] using this
    · next q hq => simp [hq] at h2
    · next k q hq =>
      simp at hs; obtain ⟨rfl, rfl⟩ := hs
      exact ⟨⟨h1, htail _ _ hq, by simp, by simp⟩, .inr ⟨_, hq, by simpa using (hev k).1, fun j => by simpa using (hev k).2 j⟩⟩
    · next i q i1 i2 i3 hq =>
      simp at hs; obtain ⟨rfl, rfl⟩ := hs
      obtain ⟨a1, a2, a3, a4, a5⟩ := hreg { s with queue := q } i
      have key : s.queue = i :: ({ s with queue := q }.register i).1.queue := by rw [a1]; exact hq
      have hi : ({ s with queue := q }.register i).2.2.count WatchEvent.took = (if i = .terminate then 1 else 0) := by
        rw [if_neg i1]; exact List.count_eq_zero.2 a4
      have hi2 : ∀ k, ({ s with queue := q }.register i).2.2.count (WatchEvent.done k) = if i = .foreach k then 1 else 0 := by
        intro k; rw [if_neg (i3 k)]; exact List.count_eq_zero.2 (a5 k)
      split
      · exact ⟨⟨a2.trans h1, by simp only [a1]; exact htail _ _ hq, by simp, by simp⟩, .inr ⟨i, key, hi, hi2⟩⟩
      · exact ⟨⟨a2.trans h1, by simp only [a1]; exact htail _ _ hq, by rw [a3]; exact h3, by rw [a3]; exact h4⟩, .inr ⟨i, key, hi, hi2⟩⟩
  · next hp => exact absurd hp h3
  · split at hs
    · simp at hs
    · split at hs
      · simp at hs; obtain ⟨rfl, rfl⟩ := hs; exact ⟨⟨h1, h2, by simp, by simp⟩, .inl ⟨rfl, by simp, by simp⟩⟩
      · simp at hs; obtain ⟨rfl, rfl⟩ := hs; exact ⟨⟨h1, h2, by simp, by simp⟩, .inl ⟨rfl, by simp [hscan], by simp [hscan]⟩⟩
  · split at hs
    · simp at hs
    · simp at hs; obtain ⟨rfl, rfl⟩ := hs; exact ⟨⟨h1, h2, by simp, by simp⟩, .inl ⟨rfl, by simp, by simp⟩⟩
  · simp at hs; obtain ⟨rfl, rfl⟩ := hs; exact ⟨⟨h1, h2, by simp, by simp⟩, .inl ⟨rfl, by simp, by simp⟩⟩
  · simp at hs; obtain ⟨rfl, rfl⟩ := hs; exact ⟨⟨h1, h2, by simp, by simp⟩, .inl ⟨rfl, by simp, by simp⟩⟩
  · split at hs
    · simp at hs; obtain ⟨rfl, rfl⟩ := hs; exact ⟨⟨h1, h2, by simp, by simp⟩, .inl ⟨rfl, by simp, by simp⟩⟩
    · simp only [Option.some.injEq] at hs
      have e1 := congrArg Prod.fst hs
      have e2 := congrArg Prod.snd hs
      dsimp only at e1 e2
      subst e1 e2
      exact ⟨⟨h1, h2, by simp [Watch.stopProcess], by simp [Watch.stopProcess]⟩, .inl ⟨rfl, hstop.1, hstop.2⟩⟩
  · next n go hp =>
    split at hs
    · simp at hs; obtain ⟨rfl, rfl⟩ := hs; exact ⟨⟨h1, h2, h3, h4⟩, .inl ⟨rfl, by simp, by simp⟩⟩
    · next q hq =>
      simp at hs; obtain ⟨rfl, rfl⟩ := hs
      exact ⟨⟨h1, htail _ _ hq, by simp, by simp⟩, .inr ⟨_, hq, by simp, by simp⟩⟩
    · next q hq => simp [hq] at h2
    · next k q hq =>
      simp at hs; obtain ⟨rfl, rfl⟩ := hs
      exact ⟨⟨h1, htail _ _ hq, by simp, by simp⟩, .inr ⟨_, hq, by simpa using (hev k).1, fun j => by simpa using (hev k).2 j⟩⟩
    · next i q i1 i2 i3 hq =>
      simp at hs; obtain ⟨rfl, rfl⟩ := hs
      obtain ⟨a1, a2, a3, a4, a5⟩ := hreg { s with queue := q } i
      refine ⟨⟨a2.trans h1, by simp only [a1]; exact htail _ _ hq, by simp, by simp⟩, .inr ⟨i, by simp only [a1]; exact hq, ?_, fun k => ?_⟩⟩
      · rw [if_neg i1]; exact List.count_eq_zero.2 a4
      · rw [if_neg (i3 k)]; exact List.count_eq_zero.2 (a5 k)
  · next n go hp => exact absurd hp (h4 n go)
  · simp at hs; obtain ⟨rfl, rfl⟩ := hs; exact ⟨⟨h1, h2, h3, h4⟩, .inl ⟨rfl, by simp, by simp⟩⟩

theorem aux_wa_plain_step (s : Watch) (op : WatchOp) (t : Watch) (l : List WatchEvent) (h : aux_wa_plain s) (hn : watchNoUse op)
    (hs : s.step op = some (t, l)) : aux_wa_plain t ∧
      l.count .took + t.queue.count .terminate = s.queue.count .terminate + stopsAsked [op] ∧
      ∀ k, l.count (.done k) + t.queue.count (.foreach k) = s.queue.count (.foreach k) + foreachAsked k [op] := by
  cases hr : isReaderStep op with
  | true =>
    cases op <;> simp [isReaderStep] at hr
    obtain ⟨a, b⟩ := aux_wa_plain_reader s _ t l h hs
    refine ⟨a, ?_⟩
    rcases b with ⟨b1, b2, b3⟩ | ⟨i, b1, b2, b3⟩
    · rw [b1, List.count_eq_zero.2 b2]
      exact ⟨by simp [stopsAsked], fun k => by rw [List.count_eq_zero.2 (b3 k)]; simp [foreachAsked]⟩
    · rw [b1]
      refine ⟨?_, fun k => ?_⟩
      · rw [b2, List.count_cons]
        by_cases hi : i = .terminate <;> simp [hi, stopsAsked]; omega
      · rw [b3 k, List.count_cons]
        by_cases hi : i = .foreach k <;> simp [hi, foreachAsked]; omega
  | false =>
    obtain ⟨h1, h2, h3, h4⟩ := h
    cases op with
    | reader e => simp [isReaderStep] at hr
    | watch d =>
      simp only [Watch.step] at hs
      split at hs
      · simp at hs; obtain ⟨rfl, rfl⟩ := hs
        exact ⟨⟨h1, by simpa [Watch.push, Watch.upd] using h2, h3, h4⟩, by simp [Watch.push, Watch.upd, stopsAsked],
          fun k => by simp [Watch.push, Watch.upd, foreachAsked]⟩
      · simp at hs; obtain ⟨rfl, rfl⟩ := hs; exact ⟨⟨h1, h2, h3, h4⟩, by simp [stopsAsked], fun k => by simp [foreachAsked]⟩
    | listen d =>
      simp [Watch.step] at hs; obtain ⟨rfl, rfl⟩ := hs
      exact ⟨⟨h1, by simpa [Watch.push, Watch.upd] using h2, h3, h4⟩, by simp [Watch.push, Watch.upd, stopsAsked],
          fun k => by simp [Watch.push, Watch.upd, foreachAsked]⟩
    | unwatch d => simp [Watch.step] at hs; obtain ⟨rfl, rfl⟩ := hs; exact ⟨⟨h1, h2, h3, h4⟩, by simp [Watch.upd, stopsAsked], fun k => by simp [Watch.upd, foreachAsked]⟩
    | block d b => simp [Watch.step] at hs; obtain ⟨rfl, rfl⟩ := hs; exact ⟨⟨h1, h2, h3, h4⟩, by simp [Watch.upd, stopsAsked], fun k => by simp [Watch.upd, foreachAsked]⟩
    | close d => simp [Watch.step] at hs; obtain ⟨rfl, rfl⟩ := hs; exact ⟨⟨h1, h2, h3, h4⟩, by simp [Watch.upd, stopsAsked], fun k => by simp [Watch.upd, foreachAsked]⟩
    | stop =>
      simp [Watch.step] at hs; obtain ⟨rfl, rfl⟩ := hs
      exact ⟨⟨h1, by simpa [Watch.push] using h2, h3, h4⟩, by simp [Watch.push, stopsAsked], fun k => by simp [Watch.push, foreachAsked]⟩
    | «foreach» k =>
      simp [Watch.step] at hs; obtain ⟨rfl, rfl⟩ := hs
      refine ⟨⟨h1, by simpa [Watch.push] using h2, h3, h4⟩, by simp [Watch.push, stopsAsked], fun j => ?_⟩
      by_cases hkj : k = j <;> simp [Watch.push, foreachAsked, hkj, List.count_append, List.count_cons]
    | useBegin m => simp [watchNoUse] at hn
    | useSet => simp [Watch.step, h1] at hs; obtain ⟨rfl, rfl⟩ := hs; exact ⟨⟨h1, h2, h3, h4⟩, by simp [stopsAsked], fun k => by simp [foreachAsked]⟩
    | useEnd => simp [Watch.step, h1] at hs; obtain ⟨rfl, rfl⟩ := hs; exact ⟨⟨h1, h2, h3, h4⟩, by simp [stopsAsked], fun k => by simp [foreachAsked]⟩

theorem aux_wa_asked_cons (op : WatchOp) (ops : List WatchOp) : stopsAsked (op :: ops) = stopsAsked [op] + stopsAsked ops ∧
    ∀ k, foreachAsked k (op :: ops) = foreachAsked k [op] + foreachAsked k ops := by
  cases op <;> simp [stopsAsked, foreachAsked]

theorem aux_wa_counts (ops : List WatchOp) : ∀ (s t : Watch) (l : List WatchEvent), aux_wa_plain s → (∀ op ∈ ops, watchNoUse op) →
    s.run ops = some (t, l) → aux_wa_plain t ∧
      l.count .took + t.queue.count .terminate = s.queue.count .terminate + stopsAsked ops ∧
      ∀ k, l.count (.done k) + t.queue.count (.foreach k) = s.queue.count (.foreach k) + foreachAsked k ops := by
  induction ops with
  | nil =>
    intro s t l h _ hr
    simp [Watch.run] at hr; obtain ⟨rfl, rfl⟩ := hr
    exact ⟨h, by simp [stopsAsked], fun k => by simp [foreachAsked]⟩
  | cons op ops ih =>
    intro s t l h hn hr
    obtain ⟨u, l1, l2, hu, hr2, rfl⟩ := (aux_wa_run_cons _ _ _ _ _).1 hr
    obtain ⟨a1, a2, a3⟩ := aux_wa_plain_step s op u l1 h (hn op (by simp)) hu
    obtain ⟨b1, b2, b3⟩ := ih u t l2 a1 (fun o ho => hn o (by simp [ho])) hr2
    obtain ⟨c1, c2⟩ := aux_wa_asked_cons op ops
    refine ⟨b1, ?_, fun k => ?_⟩
    · rw [List.count_append, c1]; omega
    · have := a3 k; have := b3 k
      rw [List.count_append, c2]; omega

/-- Without a change of the mechanism no request to end is dropped or taken twice. -/
theorem C66_counted_partial (conns : Nat → WatchConn) (ops : List WatchOp) (s : Watch) (log : List WatchEvent)
    (hr : (Watch.init conns).run ops = some (s, log)) (hn : ∀ op ∈ ops, watchNoUse op) :
    log.count .took + s.queue.count .terminate = stopsAsked ops := by
  have := (aux_wa_counts ops _ s log ⟨rfl, by simp [Watch.init], by simp [Watch.init], by simp [Watch.init]⟩ hn hr).2.1
  simpa [Watch.init] using this

/-- Without a change of the mechanism no request to visit all connections is dropped or answered twice. What is missing:
`C67_swallowed`, `C67_never_answered`. -/
theorem C67_counted_partial (conns : Nat → WatchConn) (ops : List WatchOp) (s : Watch) (log : List WatchEvent)
    (hr : (Watch.init conns).run ops = some (s, log)) (hn : ∀ op ∈ ops, watchNoUse op) (k : Nat) :
    log.count (.done k) + s.queue.count (.foreach k) = foreachAsked k ops := by
  have := (aux_wa_counts ops _ s log ⟨rfl, by simp [Watch.init], by simp [Watch.init], by simp [Watch.init]⟩ hn hr).2.2 k
  simpa [Watch.init] using this

/-- How far it is to an empty queue. -/
def aux_wa_todoLeft (m : Nat) (s : Watch) : Nat := if s.queue = [] then 0 else 1 + s.queue.length * (m + 6) + aux_wa_rank m s

theorem aux_wa_drained (m : Nat) (ops : List WatchOp) : ∀ (s t : Watch) (l : List WatchEvent), aux_wa_load s ≤ m →
    (∀ op ∈ ops, watchNoPush op) → aux_wa_before s → s.run ops = some (t, l) →
    (aux_wa_todoLeft m s ≤ ops.countP isReaderStep → t.queue = []) := by
  induction ops with
  | nil =>
    intro s t l _ _ h hr hz
    simp [Watch.run] at hr; obtain ⟨rfl, _⟩ := hr
    unfold aux_wa_todoLeft at hz
    split at hz
    · assumption
    · simp at hz
  | cons op ops ih =>
    intro s t l hl hn h hr hz
    obtain ⟨u, l1, l2, hu, hr2, rfl⟩ := (aux_wa_run_cons _ _ _ _ _).1 hr
    have hnp := hn op (by simp)
    have hb : aux_wa_before u := aux_wa_before_step s op u l1 h
      (by cases op <;> simp_all [watchNoPush, watchNoUse]) hu
    rw [List.countP_cons] at hz
    cases hop : isReaderStep op with
    | false =>
      obtain ⟨a1, a2, a3, a4, _⟩ := aux_wa_noPush s op u l1 hop hnp hu
      refine ih u t l2 (by simpa only [aux_wa_load, a1, a3, a4] using hl) (fun o ho => hn o (by simp [ho])) hb hr2 ?_
      simp only [aux_wa_todoLeft, aux_wa_rank, a1, a2] at hz ⊢
      simpa [hop] using hz
    | true =>
      cases op <;> simp [isReaderStep] at hop
      obtain ⟨g1, g2, _, g3⟩ := aux_wa_good_reader m s _ u l1 hl h.2.2.2 (fun q hq => by have := h.2.1; simp [hq] at this)
        (fun q hq => by have := h.2.2.1; simp [hq] at this) hu
      refine ih u t l2 g2 (fun o ho => hn o (by simp [ho])) hb hr2 ?_
      simp [isReaderStep] at hz
      have hrk := aux_wa_rank_le m u g2 g1
      unfold aux_wa_todoLeft at hz ⊢
      split
      · omega
      · next hne =>
        rcases g3 with ⟨g3, g4⟩ | ⟨i, g3⟩
        · rw [if_neg (by rw [← g3]; exact hne)] at hz
          rcases g4 with g4 | g4
          · exact absurd (g3.trans g4) hne
          · rw [g3]; omega
        · rw [if_neg (by rw [g3]; simp), g3, List.length_cons, Nat.add_mul] at hz; omega

/-- As long as the reader was not told to end and the mechanism was not changed, every caller is notified after a bounded
number of steps of the reader, whatever the connections do. -/
theorem C67_answered_partial (conns : Nat → WatchConn) (ops : List WatchOp) (s : Watch) (log : List WatchEvent)
    (hr : (Watch.init conns).run ops = some (s, log)) (hn : ∀ op ∈ ops, watchNoUse op ∧ op ≠ .stop) :
    ∃ bound, ∀ ops' t log', (∀ op ∈ ops', watchNoPush op) → bound ≤ ops'.countP isReaderStep →
      s.run ops' = some (t, log') → ∀ k, (log ++ log').count (.done k) = foreachAsked k ops := by
  have hb : aux_wa_before s := aux_wa_invariant aux_wa_before _ aux_wa_before_step ops _ s log
    ⟨rfl, by simp [Watch.init], by simp [Watch.init], by simp [aux_wa_good, Watch.init]⟩ hn hr
  refine ⟨aux_wa_todoLeft (aux_wa_load s) s, ?_⟩
  intro ops' t log' hn' hk hr' k
  have hq := aux_wa_drained (aux_wa_load s) ops' s t log' (Nat.le_refl _) hn' hb hr' hk
  have h1 := C67_counted_partial conns ops s log hr (fun op ho => (hn op ho).1) k
  have h2 := (aux_wa_counts ops' s t log' (by
      refine ⟨hb.1, hb.2.2.1, ?_, ?_⟩
      · rintro hp; have := hb.2.2.2; simp [aux_wa_good, hp] at this
      · rintro n go hp; have := hb.2.2.2; simp [aux_wa_good, hp] at this)
    (fun op ho => by have := hn' op ho; cases op <;> simp_all [watchNoPush, watchNoUse]) hr').2.2 k
  have h3 : foreachAsked k ops' = 0 := by
    clear hr' hk hq h2
    induction ops' with
    | nil => rfl
    | cons op ops' ih =>
      have := hn' op (by simp)
      have := ih (fun o ho => hn' o (by simp [ho]))
      cases op <;> simp_all [watchNoPush, foreachAsked]
  rw [List.count_append]
  rw [hq, h3] at h2
  simp at h2
  omega

/-- A concrete case: one of two connections was closed; the handler is called for the other and the listener. -/
example : ((Watch.init aux_wa_conns).run [.listen 1, .watch 2, .watch 3, aux_wa_env [], aux_wa_env [], aux_wa_env [], aux_wa_env [],
      aux_wa_env [], aux_wa_env [], .foreach 7, aux_wa_env [], aux_wa_env [], aux_wa_env [], .close 3, aux_wa_env [], aux_wa_env []]).map
      Prod.snd = some [.visit 7 2, .visit 7 1, .done 7] := by decide

/-- **Violation**: a request that comes while the mechanism is changed is dropped; its caller waits for ever. -/
theorem C67_swallowed : ∃ conns s log, (Watch.init conns).run [.listen 1, aux_wa_env [], aux_wa_env [], .useBegin 1, aux_wa_env [],
      aux_wa_env [], aux_wa_env [], .useSet, .foreach 7, aux_wa_env [], .useEnd, aux_wa_env []] = some (s, log) ∧
    .done 7 ∉ log ∧ .foreach 7 ∉ s.queue :=
  ⟨aux_wa_conns, _, _, rfl, by decide, by decide⟩

/-- **Violation**: a request that comes when the reader ended, or behind the request to end, is never answered. -/
theorem C67_never_answered : ∃ conns s log, (Watch.init conns).run [.stop, .foreach 7, aux_wa_env []] = some (s, log) ∧
    s.phase = .stopped ∧ .foreach 7 ∈ s.queue ∧ ∀ ops t log', s.run ops = some (t, log') → .done 7 ∉ log' := by
  refine ⟨aux_wa_conns, _, _, rfl, rfl, by decide, ?_⟩
  intro ops
  have key : ∀ (ops : List WatchOp) (s t : Watch) (l : List WatchEvent), s.phase = .stopped → s.run ops = some (t, l) → .done 7 ∉ l := by
    intro ops
    induction ops with
    | nil => intro s t l _ hr; simp [Watch.run] at hr; obtain ⟨rfl, rfl⟩ := hr; simp
    | cons op ops ih =>
      intro s t l hp hr
      obtain ⟨u, l1, l2, hu, hr2, rfl⟩ := (aux_wa_run_cons _ _ _ _ _).1 hr
      have h2 := ih u t l2 (aux_wa_stopped_step s op u l1 hp hu) hr2
      rcases aux_wa_foreach_events s op u l1 hu with ⟨k, q, _, _, _, _, h⟩ | ⟨h, _⟩
      · rcases h with ⟨n, go, h⟩ | h <;> simp [hp] at h
      · simp [h, h2]
  intro t log' hr
  exact key ops _ t log' rfl hr

theorem C67_statement_false : ¬ C67_statement := by
  intro h
  obtain ⟨conns, s, log, h1, h2, h3, _⟩ := C67_never_answered
  exact (h conns _ s log h1).2.1 h2 7 h3

/-! ### Changing the wait mechanism (C68) -/

/-- The wait mechanism can be changed at any time. -/
def C68_statement : Prop := ∀ conns ops, (Watch.init conns).run ops ≠ none

/-- Where the change is. -/
def aux_wa_changing (s : Watch) : Prop := s.phase = .firstChange ∨ ∃ n go, s.phase = .change n go

def aux_wa_change (s : Watch) : Prop :=
  s.phase = .stopped ∨
  (s.user = .idle ∧ s.tokens = 0 ∧ .ioChanged ∉ s.queue ∧ (aux_wa_changing s → ∃ r, s.queue = .ioReady :: r) ∧
    (¬ aux_wa_changing s → s.group = some s.mech)) ∨
  ((∃ m, s.user = .asked m) ∧ s.tokens = 0 ∧ (∃ r, s.queue = r ++ [.ioChanged] ∧ .ioChanged ∉ r ∧
    (aux_wa_changing s → ∃ r', r = .ioReady :: r')) ∧ (¬ aux_wa_changing s → s.group = some s.mech)) ∨
  ((∃ m, s.user = .asked m) ∧ s.tokens = 1 ∧ s.queue = [] ∧ aux_wa_changing s) ∨
  (s.user = .changed ∧ s.tokens = 0 ∧ s.queue = [] ∧ aux_wa_changing s)

theorem aux_wa_register_rest (u : Watch) (i : WatchItem) : (u.register i).1.queue = u.queue ∧ (u.register i).1.user = u.user ∧
    (u.register i).1.phase = u.phase ∧ (u.register i).1.tokens = u.tokens ∧ (u.register i).1.group = u.group ∧
    (u.register i).1.mech = u.mech := by
  unfold Watch.register; split
  · split <;> simp [Watch.upd]
  · simp
  · simp

theorem aux_wa_changing_reader (s : Watch) (e : WatchEnv) (h : aux_wa_changing s) :
    ∃ t l, s.reader e = some (t, l) ∧ ((s.queue = [] ∧ t = s) ∨ ∃ i, s.queue = i :: t.queue ∧ t.user = s.user ∧
      t.tokens = s.tokens ∧ t.group = some t.mech ∧ ¬ aux_wa_changing t) := by
  unfold Watch.reader
  split
  · next hp => simp [aux_wa_changing, hp] at h
  · next hp =>
    split
    · next hq => exact ⟨_, _, rfl, .inl ⟨hq, rfl⟩⟩
    · next i q hq =>
      obtain ⟨a1, a2, a3, a4, a5, a6⟩ := aux_wa_register_rest { s with queue := q, group := some s.mech } i
      refine ⟨_, _, rfl, .inr ⟨i, by simp only [a1]; exact hq, a2, a4, by simp only [a5, a6], ?_⟩⟩
      unfold aux_wa_changing; dsimp only; split <;> simp
  · next hp => simp [aux_wa_changing, hp] at h
  · next hp => simp [aux_wa_changing, hp] at h
  · next hp => simp [aux_wa_changing, hp] at h
  · next hp => simp [aux_wa_changing, hp] at h
  · next hp => simp [aux_wa_changing, hp] at h
  · next hp => simp [aux_wa_changing, hp] at h
  · next hp =>
    split
    · next hq => exact ⟨_, _, rfl, .inl ⟨hq, rfl⟩⟩
    · next i q hq =>
      obtain ⟨a1, a2, a3, a4, a5, a6⟩ := aux_wa_register_rest { s with queue := q, group := some s.mech } i
      refine ⟨_, _, rfl, .inr ⟨i, by simp only [a1]; exact hq, a2, a4, by simp only [a5, a6], ?_⟩⟩
      unfold aux_wa_changing; simp
  · next hp => simp [aux_wa_changing, hp] at h

theorem aux_wa_steady_reader (s : Watch) (e : WatchEnv) (h : ¬ aux_wa_changing s) (hg : s.group = some s.mech) :
    ∃ t l, s.reader e = some (t, l) ∧ (t.phase = .stopped ∨
      (t.user = s.user ∧ t.tokens = s.tokens ∧ t.group = some t.mech ∧ ¬ aux_wa_changing t ∧
        (t.queue = s.queue ∨ ∃ i, s.queue = i :: t.queue ∧ i ≠ .ioChanged)) ∨
      (t.user = s.user ∧ t.tokens = s.tokens + 1 ∧ aux_wa_changing t ∧ s.queue = .ioChanged :: t.queue)) := by
  unfold Watch.reader
  split
  · next hp =>
    split
    · exact ⟨_, _, rfl, .inr (.inl ⟨rfl, rfl, hg, h, .inl rfl⟩)⟩
    · exact ⟨_, _, rfl, .inl rfl⟩
    · next q hq => rw [if_pos hg]; exact ⟨_, _, rfl, .inr (.inr ⟨rfl, rfl, .inl rfl, hq⟩)⟩
    · next k q hq => exact ⟨_, _, rfl, .inr (.inl ⟨rfl, rfl, hg, by simp [aux_wa_changing], .inr ⟨_, hq, by simp⟩⟩)⟩
    · next i q i1 i2 i3 hq =>
      obtain ⟨a1, a2, a3, a4, a5, a6⟩ := aux_wa_register_rest { s with queue := q } i
      refine ⟨_, _, rfl, .inr (.inl ?_)⟩
      split
      · exact ⟨a2, a4, by simp only [a5, a6]; exact hg, by simp [aux_wa_changing], .inr ⟨i, by simp only [a1]; exact hq, i2⟩⟩
      · exact ⟨a2, a4, by simp only [a5, a6]; exact hg, by unfold aux_wa_changing; rw [a3, hp]; simp, .inr ⟨i, by simp only [a1]; exact hq, i2⟩⟩
  · next hp => exact absurd (.inl hp) h
  · rw [if_neg (by simpa using hg)]
    split
    · exact ⟨_, _, rfl, .inr (.inl ⟨rfl, rfl, hg, by simp [aux_wa_changing], .inl rfl⟩)⟩
    · exact ⟨_, _, rfl, .inr (.inl ⟨rfl, rfl, hg, by simp [aux_wa_changing], .inl rfl⟩)⟩
  · rw [if_neg (by simpa using hg)]
    exact ⟨_, _, rfl, .inr (.inl ⟨rfl, rfl, hg, by simp [aux_wa_changing], .inl rfl⟩)⟩
  · exact ⟨_, _, rfl, .inr (.inl ⟨rfl, rfl, hg, by simp [aux_wa_changing], .inl rfl⟩)⟩
  · exact ⟨_, _, rfl, .inr (.inl ⟨rfl, rfl, hg, by simp [aux_wa_changing], .inl rfl⟩)⟩
  · split
    · exact ⟨_, _, rfl, .inr (.inl ⟨rfl, rfl, hg, by simp [aux_wa_changing], .inl rfl⟩)⟩
    · exact ⟨_, _, rfl, .inl rfl⟩
  · next n go hp =>
    split
    · exact ⟨_, _, rfl, .inr (.inl ⟨rfl, rfl, hg, h, .inl rfl⟩)⟩
    · next q hq => exact ⟨_, _, rfl, .inr (.inl ⟨rfl, rfl, hg, by simp [aux_wa_changing], .inr ⟨_, hq, by simp⟩⟩)⟩
    · next q hq => rw [if_pos hg]; exact ⟨_, _, rfl, .inr (.inr ⟨rfl, rfl, .inr ⟨_, _, rfl⟩, hq⟩)⟩
    · next k q hq => exact ⟨_, _, rfl, .inr (.inl ⟨rfl, rfl, hg, by simp [aux_wa_changing], .inr ⟨_, hq, by simp⟩⟩)⟩
    · next i q i1 i2 i3 hq =>
      obtain ⟨a1, a2, a3, a4, a5, a6⟩ := aux_wa_register_rest { s with queue := q } i
      exact ⟨_, _, rfl, .inr (.inl ⟨a2, a4, by simp only [a5, a6]; exact hg, by simp [aux_wa_changing], .inr ⟨i, by simp only [a1]; exact hq, i2⟩⟩)⟩
  · next n go hp => exact absurd (.inr ⟨n, go, hp⟩) h
  · next hp => exact ⟨_, _, rfl, .inl hp⟩

theorem aux_wa_change_reader (s : Watch) (e : WatchEnv) (h : aux_wa_change s) :
    ∃ t l, s.reader e = some (t, l) ∧ aux_wa_change t := by
  rcases h with h | ⟨h1, h2, h3, h4, h5⟩ | ⟨h1, h2, ⟨r, h3, h4, h5⟩, h6⟩ | ⟨h1, h2, h3, h4⟩ | ⟨h1, h2, h3, h4⟩
  · exact ⟨s, [], by simp only [Watch.reader, h], .inl h⟩
  · by_cases hc : aux_wa_changing s
    · obtain ⟨t, l, ht, g⟩ := aux_wa_changing_reader s e hc
      obtain ⟨r, hr⟩ := h4 hc
      refine ⟨t, l, ht, ?_⟩
      rcases g with ⟨g, _⟩ | ⟨i, g1, g2, g3, g4, g5⟩
      · simp [hr] at g
      · exact .inr (.inl ⟨g2.trans h1, g3.trans h2, fun hm => h3 (by rw [g1]; exact List.mem_cons_of_mem _ hm),
          fun x => absurd x g5, fun _ => g4⟩)
    · obtain ⟨t, l, ht, g⟩ := aux_wa_steady_reader s e hc (h5 hc)
      refine ⟨t, l, ht, ?_⟩
      rcases g with g | ⟨g1, g2, g3, g4, g5⟩ | ⟨_, _, _, g⟩
      · exact .inl g
      · refine .inr (.inl ⟨g1.trans h1, g2.trans h2, ?_, fun x => absurd x g4, fun _ => g3⟩)
        rcases g5 with g5 | ⟨i, g5, _⟩
        · rw [g5]; exact h3
        · intro hm; exact h3 (by rw [g5]; exact List.mem_cons_of_mem _ hm)
      · simp [g] at h3
  · by_cases hc : aux_wa_changing s
    · obtain ⟨t, l, ht, g⟩ := aux_wa_changing_reader s e hc
      obtain ⟨r', rfl⟩ := h5 hc
      refine ⟨t, l, ht, ?_⟩
      rcases g with ⟨g, _⟩ | ⟨i, g1, g2, g3, g4, g5⟩
      · simp [h3] at g
      · have : t.queue = r' ++ [.ioChanged] := by rw [h3] at g1; simp at g1; exact g1.2.symm
        exact .inr (.inr (.inl ⟨by rw [g2]; exact h1, g3.trans h2, ⟨r', this, fun hm => h4 (by simp [hm]), fun x => absurd x g5⟩, fun _ => g4⟩))
    · obtain ⟨t, l, ht, g⟩ := aux_wa_steady_reader s e hc (h6 hc)
      refine ⟨t, l, ht, ?_⟩
      rcases g with g | ⟨g1, g2, g3, g4, g5⟩ | ⟨g1, g2, g3, g⟩
      · exact .inl g
      · refine .inr (.inr (.inl ⟨by rw [g1]; exact h1, g2.trans h2, ?_, fun _ => g3⟩))
        rcases g5 with g5 | ⟨i, g5, g6⟩
        · exact ⟨r, g5.trans h3, h4, fun x => absurd x g4⟩
        · cases r with
          | nil => rw [h3] at g5; simp at g5; exact absurd g5.1.symm g6
          | cons j r =>
            rw [h3] at g5; simp at g5
            exact ⟨r, g5.2.symm, fun hm => h4 (by simp [hm]), fun x => absurd x g4⟩
      · cases r with
        | nil =>
          rw [h3] at g; simp at g
          exact .inr (.inr (.inr (.inl ⟨by rw [g1]; exact h1, by omega, g, g3⟩)))
        | cons j r => rw [h3] at g; simp at g; exact absurd (by simp [g.1]) h4
  · obtain ⟨t, l, ht, g⟩ := aux_wa_changing_reader s e h4
    refine ⟨t, l, ht, ?_⟩
    rcases g with ⟨_, rfl⟩ | ⟨i, g, _⟩
    · exact .inr (.inr (.inr (.inl ⟨h1, h2, h3, h4⟩)))
    · simp [h3] at g
  · obtain ⟨t, l, ht, g⟩ := aux_wa_changing_reader s e h4
    refine ⟨t, l, ht, ?_⟩
    rcases g with ⟨_, rfl⟩ | ⟨i, g, _⟩
    · exact .inr (.inr (.inr (.inr ⟨h1, h2, h3, h4⟩)))
    · simp [h3] at g

/-- Something that only touches connections does not matter. -/
theorem aux_wa_change_upd (s : Watch) (c : Nat) (f : WatchConn → WatchConn) (h : aux_wa_change s) : aux_wa_change (s.upd c f) := h

theorem aux_wa_change_push (s : Watch) (i : WatchItem) (hu : s.phase = .stopped ∨ s.user = .idle) (hi : i ≠ .ioChanged)
    (h : aux_wa_change s) : aux_wa_change (s.push i) := by
  rcases hu with hu | hu
  · exact .inl hu
  rcases h with h | ⟨h1, h2, h3, h4, h5⟩ | ⟨⟨m, h1⟩, _⟩ | ⟨⟨m, h1⟩, _⟩ | ⟨h1, _⟩
  · exact .inl h
  · refine .inr (.inl ⟨h1, h2, by simp [Watch.push, h3, Ne.symm hi], fun hc => ?_, h5⟩)
    obtain ⟨r, hr⟩ := h4 hc
    exact ⟨r ++ [i], by simp [Watch.push, hr]⟩
  · simp [hu] at h1
  · simp [hu] at h1
  · simp [hu] at h1

theorem aux_wa_change_step (s : Watch) (op : WatchOp) (h : aux_wa_change s)
    (hq : s.user ≠ .idle → watchNoPush op ∨ (∃ m, op = .useBegin m) ∨ op = .useSet ∨ op = .useEnd) :
    ∃ t l, s.step op = some (t, l) ∧ aux_wa_change t := by
  have hidle : ¬ watchNoPush op → (∀ m, op ≠ .useBegin m) → op ≠ .useSet → op ≠ .useEnd → s.user = .idle := by
    intro a b c d
    cases hu : s.user with
    | idle => rfl
    | asked m =>
      rcases hq (by simp [hu]) with x | ⟨m, x⟩ | x | x
      · exact absurd x a
      · exact absurd x (b m)
      · exact absurd x c
      · exact absurd x d
    | changed =>
      rcases hq (by simp [hu]) with x | ⟨m, x⟩ | x | x
      · exact absurd x a
      · exact absurd x (b m)
      · exact absurd x c
      · exact absurd x d
  cases op with
  | reader e => exact aux_wa_change_reader s e h
  | watch c =>
    simp only [Watch.step]
    split
    · exact ⟨_, _, rfl, aux_wa_change_push (s.upd c fun w => { w with refs := w.refs + 1 }) _
        (.inr (hidle (by simp [watchNoPush]) (by simp) (by simp) (by simp))) (by simp) (aux_wa_change_upd s c _ h)⟩
    · exact ⟨_, _, rfl, h⟩
  | listen c =>
    exact ⟨_, _, rfl, aux_wa_change_push (s.upd c fun w => { w with refs := w.refs + 1 }) _
        (.inr (hidle (by simp [watchNoPush]) (by simp) (by simp) (by simp))) (by simp) (aux_wa_change_upd s c _ h)⟩
  | unwatch c => exact ⟨_, _, rfl, aux_wa_change_upd s c _ h⟩
  | block c b => exact ⟨_, _, rfl, aux_wa_change_upd s c _ h⟩
  | close c => exact ⟨_, _, rfl, aux_wa_change_upd s c _ h⟩
  | stop => exact ⟨_, _, rfl, aux_wa_change_push s _ (.inr (hidle (by simp [watchNoPush]) (by simp) (by simp) (by simp))) (by simp) h⟩
  | «foreach» k => exact ⟨_, _, rfl, aux_wa_change_push s _ (.inr (hidle (by simp [watchNoPush]) (by simp) (by simp) (by simp))) (by simp) h⟩
  | useBegin m =>
    simp only [Watch.step]
    split
    · next hu =>
      refine ⟨_, _, rfl, ?_⟩
      rcases h with h | ⟨h1, h2, h3, h4, h5⟩ | ⟨⟨m, h1⟩, _⟩ | ⟨⟨m, h1⟩, _⟩ | ⟨h1, _⟩
      · exact .inl h
      · exact .inr (.inr (.inl ⟨⟨m, rfl⟩, h2, ⟨s.queue, rfl, h3, h4⟩, h5⟩))
      · simp [hu] at h1
      · simp [hu] at h1
      · simp [hu] at h1
    · exact ⟨_, _, rfl, h⟩
  | useSet =>
    simp only [Watch.step]
    split
    · next m hu =>
      split
      · next ht =>
        refine ⟨_, _, rfl, ?_⟩
        rcases h with h | ⟨h1, _⟩ | ⟨_, h2, _⟩ | ⟨h1, h2, h3, h4⟩ | ⟨h1, _⟩
        · exact .inl h
        · simp [hu] at h1
        · omega
        · exact .inr (.inr (.inr (.inr ⟨rfl, by simp [h2], h3, h4⟩)))
        · simp [hu] at h1
      · exact ⟨_, _, rfl, h⟩
    · exact ⟨_, _, rfl, h⟩
  | useEnd =>
    simp only [Watch.step]
    split
    · next hu =>
      refine ⟨_, _, rfl, ?_⟩
      rcases h with h | ⟨h1, _⟩ | ⟨⟨m, h1⟩, _⟩ | ⟨⟨m, h1⟩, _⟩ | ⟨h1, h2, h3, h4⟩
      · exact .inl h
      · simp [hu] at h1
      · simp [hu] at h1
      · simp [hu] at h1
      · refine .inr (.inl ⟨rfl, h2, by simp [Watch.push, h3], fun _ => ⟨[], by simp [Watch.push, h3]⟩, fun x => absurd h4 x⟩)
    · exact ⟨_, _, rfl, h⟩

theorem aux_wa_change_run (ops : List WatchOp) : ∀ s : Watch, aux_wa_change s → watchQuiet s ops →
    ∃ t l, s.run ops = some (t, l) ∧ aux_wa_change t := by
  induction ops with
  | nil => intro s h _; exact ⟨s, [], rfl, h⟩
  | cons op ops ih =>
    intro s h hq
    obtain ⟨u, l1, hu, hc⟩ := aux_wa_change_step s op h hq.1
    obtain ⟨t, l2, ht, hc2⟩ := ih u hc (hq.2 u l1 hu)
    exact ⟨t, l1 ++ l2, (aux_wa_run_cons _ _ _ _ _).2 ⟨u, l1, l2, hu, ht, rfl⟩, hc2⟩

/-- The mechanism can be changed at any time, and any number of times, as long as nothing else is handed to the reader during
a change; and at any moment without a change the reader uses the functions set. What is missing: `C68_mixed`. -/
theorem C68_safe_partial (conns : Nat → WatchConn) (ops : List WatchOp) (hq : watchQuiet (Watch.init conns) ops) :
    ∃ t log, (Watch.init conns).run ops = some (t, log) ∧
      (t.phase = .stopped ∨ t.user ≠ .idle ∨ .ioReady ∈ t.queue ∨ t.group = some t.mech) := by
  obtain ⟨t, l, ht, hc⟩ := aux_wa_change_run ops _ (.inr (.inl ⟨rfl, rfl, by simp [Watch.init], fun h => by
    rcases h with h | ⟨n, go, h⟩ <;> simp [Watch.init] at h, fun _ => rfl⟩)) hq
  refine ⟨t, l, ht, ?_⟩
  rcases hc with h | ⟨h1, h2, h3, h4, h5⟩ | ⟨⟨m, h1⟩, _⟩ | ⟨⟨m, h1⟩, _⟩ | ⟨h1, _⟩
  · exact .inl h
  · by_cases hc : aux_wa_changing t
    · obtain ⟨r, hr⟩ := h4 hc; exact .inr (.inr (.inl (by simp [hr])))
    · exact .inr (.inr (.inr (h5 hc)))
  · exact .inr (.inl (by simp [h1]))
  · exact .inr (.inl (by simp [h1]))
  · exact .inr (.inl (by simp [h1]))

/-- A concrete case: the mechanism is changed while a connection is watched. -/
example : ((Watch.init aux_wa_conns).run [.watch 1, aux_wa_env [], aux_wa_env [], .useBegin 1, aux_wa_env [], aux_wa_env [], aux_wa_env [],
      .useSet, .useEnd, aux_wa_env [], aux_wa_env [], aux_wa_env [], aux_wa_env [1], aux_wa_env []]).map
      (fun r => (r.1.mech, r.1.group, r.1.user, r.2)) = some (1, some 1, .idle, [.process 1]) := by decide

/-- A history that is quiet, with a connection registered before and after a change. -/
example : watchQuiet (Watch.init aux_wa_conns) [.watch 1, aux_wa_env [], .useBegin 1, .useSet, .useEnd] := by
  simp [watchQuiet, Watch.step, Watch.init, Watch.upd, aux_wa_conns, Watch.push, aux_wa_env, watchNoPush]

/-- **Violation**: a connection is registered (by any thread, for example for an accepted connection) between the request to
change and the change: the reader takes its registration for the answer, creates the set with the old functions and then
calls the new ones for it. -/
theorem C68_mixed : ∃ conns, (Watch.init conns).run [.watch 1, aux_wa_env [], aux_wa_env [], .useBegin 1, .watch 2, aux_wa_env [],
      aux_wa_env [], aux_wa_env [], aux_wa_env [], .useSet, aux_wa_env [], .useEnd, aux_wa_env [], aux_wa_env [],
      aux_wa_env []] = none :=
  ⟨aux_wa_conns, by decide⟩

theorem C68_statement_false : ¬ C68_statement := by
  intro h
  obtain ⟨conns, hc⟩ := C68_mixed
  exact h conns _ hc

end Verif.Props
