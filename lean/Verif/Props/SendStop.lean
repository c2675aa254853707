import Verif.Model.SendStop
/-!
# C130: sending while a context ends
-/
namespace Verif.Props
open Verif.Model

def qsLocked : QsSender → Bool
  | .locked _ => true
  | _ => false

structure QsInv (s : Qs) : Prop where
  queue : s.written ++ s.pending = s.accepted
  owner1 : ∀ t, s.owner = some t → qsLocked (s.senders t) = true
  owner2 : ∀ t, qsLocked (s.senders t) = true → s.owner = some t
  ended : s.ended = true → s.stop ≠ .none ∧ s.stop ≠ .exiting
  later : s.stop = .joined ∨ s.stop = .freed ∨ s.stop = .nulled → s.ended = true

theorem aux_qs_step (s : Qs) (op : QsOp) (h : QsInv s) : QsInv (s.step op) := by
  obtain ⟨h1, h2, h2', h3, h4⟩ := h
  cases op <;> simp only [Qs.step, Qs.setSender]
  case writer =>
    split
    · exact ⟨h1, h2, h2', h3, h4⟩
    · rcases hp : s.pending with _ | ⟨m, rest⟩ <;> rcases hst : s.stop <;> constructor <;> simp_all
  all_goals
    repeat' split
    all_goals first
      | exact ⟨h1, h2, h2', h3, h4⟩
      | (constructor <;> grind [qsLocked])

theorem aux_qs_run (ops : List QsOp) : ∀ s : Qs, QsInv s → QsInv (s.run ops) := by
  induction ops with
  | nil => intro s h; exact h
  | cons o ops ih => intro s h; exact ih _ (aux_qs_step s o h)

theorem aux_qs_init : QsInv Qs.init := by constructor <;> simp [Qs.init, qsLocked]

/-- The message a thread is about to queue. -/
def qsMsg : QsSender → Option Nat
  | .checked m | .got m _ | .locked m => some m
  | _ => none

structure QsUniq (s : Qs) : Prop where
  mine : ∀ t m, qsMsg (s.senders t) = some m → m < s.next ∧ m ∉ s.accepted ∧ m ∉ s.refused
  one : ∀ t u m, qsMsg (s.senders t) = some m → qsMsg (s.senders u) = some m → t = u
  acc : ∀ m ∈ s.accepted, m < s.next ∧ m ∉ s.refused
  ref : ∀ m ∈ s.refused, m < s.next
  nodup : s.accepted.Nodup

theorem aux_qs_uniqStep (s : Qs) (op : QsOp) (h : QsUniq s) : QsUniq (s.step op) := by
  obtain ⟨h1, h2, h3, h4, h5⟩ := h
  cases op <;> simp only [Qs.step, Qs.setSender]
  case writer => repeat' split
                 all_goals exact ⟨h1, h2, h3, h4, h5⟩
  all_goals
    repeat' split
    all_goals first
      | exact ⟨h1, h2, h3, h4, h5⟩
      | (constructor <;> grind [qsMsg, List.nodup_append])

theorem aux_qs_uniqRun (ops : List QsOp) : ∀ s : Qs, QsUniq s → QsUniq (s.run ops) := by
  induction ops with
  | nil => intro s h; exact h
  | cons o ops ih => intro s h; exact ih _ (aux_qs_uniqStep s o h)

/-- **C130**, part: messages are written once, in the order in which they were queued, and refused messages are never written. -/
theorem C130_order_partial (ops : List QsOp) : let s := Qs.init.run ops
    s.written <+: s.accepted ∧ s.accepted.Nodup ∧ ∀ m ∈ s.refused, m ∉ s.written := by
  have h := aux_qs_run ops _ aux_qs_init
  have hu := aux_qs_uniqRun ops Qs.init (by constructor <;> simp [Qs.init, qsMsg])
  refine ⟨⟨_, h.queue⟩, hu.nodup, fun m hm hw => ?_⟩
  exact (hu.acc m (by rw [← h.queue]; exact List.mem_append_left _ hw)).2 hm

example : let s := Qs.init.run [.send 0, .send 1, .get 1, .lock 1, .get 0, .add 1, .lock 0, .add 0, .writer, .signal 0, .writer, .exit, .send 0]
    (s.written, s.accepted, s.refused) = ([1, 0], [1, 0], [2]) := by decide +kernel

theorem aux_qs_after (n : Nat) (ops : List QsOp) : ∀ s : Qs, s.stop ≠ .none → (∀ m ∈ s.accepted, m < n) →
    (∀ t m, qsMsg (s.senders t) = some m → m < n) → (∀ m, n ≤ m → m < s.next → m ∈ s.refused) →
    (∀ m ∈ (s.run ops).accepted, m < n) ∧ ∀ m, n ≤ m → m < (s.run ops).next → m ∈ (s.run ops).refused := by
  induction ops with
  | nil => intro s _ h1 _ h3; exact ⟨h1, h3⟩
  | cons o ops ih =>
    intro s h0 h1 h2 h3
    refine ih (s.step o) ?_ ?_ ?_ ?_
    all_goals
      cases o <;> simp only [Qs.step, Qs.setSender] <;> repeat' split
      all_goals first
        | assumption
        | grind [qsMsg]

/-- **C130**, part: messages sent after the context began to end are refused, each of them. -/
theorem C130_refused_partial (ops ops' : List QsOp) : let n := (Qs.init.run ops).next
    let s := Qs.init.run (ops ++ .exit :: ops')
    (∀ m ∈ s.accepted, m < n) ∧ ∀ m, n ≤ m → m < s.next → m ∈ s.refused := by
  have hu := aux_qs_uniqRun ops Qs.init (by constructor <;> simp [Qs.init, qsMsg])
  simp only [Qs.run, List.foldl_append, List.foldl_cons]
  have hfold : ops.foldl Qs.step Qs.init = Qs.init.run ops := rfl
  rw [hfold]
  generalize Qs.init.run ops = s at *
  refine aux_qs_after s.next ops' (s.step .exit) ?_ ?_ ?_ ?_
  · simp only [Qs.step]; split <;> simp_all
  · intro m hm; simp only [Qs.step] at hm; split at hm <;> exact (hu.acc m hm).1
  · intro t m hm; simp only [Qs.step] at hm; split at hm <;> exact (hu.mine t m hm).1
  · intro m h1 h2; simp only [Qs.step] at h2; split at h2 <;> exact absurd h2 (Nat.not_lt.mpr h1)

theorem aux_qs_idle (ops : List QsOp) : ∀ s : Qs, QsInv s → s.stop ≠ .none → (∀ t, s.senders t = .idle) → s.bad = false →
    (s.run ops).bad = false := by
  induction ops with
  | nil => intro s _ _ _ h; exact h
  | cons o ops ih =>
    intro s hi h0 h1 h2
    have ho : s.owner = none := by
      rcases hh : s.owner with _ | t
      · rfl
      · have hm := hi.owner1 t hh; rw [h1] at hm; cases hm
    refine ih (s.step o) (aux_qs_step s o hi) ?_ ?_ ?_
    all_goals
      cases o <;> simp only [Qs.step, Qs.setSender, h1] <;> repeat' split
      all_goals first
        | assumption
        | grind

theorem aux_qs_notFreed (ops : List QsOp) (hf : QsOp.free ∉ ops) : ∀ s : Qs, s.stop ≠ .freed → s.stop ≠ .nulled → s.bad = false →
    (∀ t m, s.senders t ≠ .got m true) → (s.run ops).bad = false := by
  induction ops with
  | nil => intro s _ _ h _; exact h
  | cons o ops ih =>
    intro s h1 h2 h3 h4
    refine ih (fun hm => hf (List.mem_cons_of_mem _ hm)) (s.step o) ?_ ?_ ?_ ?_
    all_goals
      cases o <;> simp only [Qs.step, Qs.setSender] <;> repeat' split
      all_goals first
        | assumption
        | (exact absurd (List.mem_cons_self ..) hf)
        | grind

/-- **C130**, part: if the calls that were sending when the context began to end returned before the state of the thread that writes is
released, no released memory is used. -/
theorem C130_quiet_partial (ops ops' : List QsOp) (hf : QsOp.free ∉ ops) (he : QsOp.exit ∈ ops)
    (hq : ∀ t, (Qs.init.run ops).senders t = .idle) : (Qs.init.run (ops ++ ops')).bad = false := by
  have hb := aux_qs_notFreed ops hf Qs.init (by simp [Qs.init]) (by simp [Qs.init]) rfl (by simp [Qs.init])
  have hs : (Qs.init.run ops).stop ≠ .none := by
    have aux : ∀ (ops : List QsOp) (s : Qs), s.stop ≠ .none ∨ QsOp.exit ∈ ops → (s.run ops).stop ≠ .none := by
      intro ops
      induction ops with
      | nil => intro s h; rcases h with h | h
               · exact h
               · cases h
      | cons o ops ih =>
        intro s h
        refine ih (s.step o) ?_
        have hkeep : s.stop ≠ .none → (s.step o).stop ≠ .none := by
          intro h0
          cases o <;> simp only [Qs.step, Qs.setSender] <;> repeat' split
          all_goals first
            | assumption
            | simp
        rcases h with h | h
        · exact Or.inl (hkeep h)
        · rcases List.mem_cons.mp h with h | h
          · subst h; left; simp only [Qs.step]; split <;> simp_all
          · exact Or.inr h
    exact aux ops _ (Or.inr he)
  have := aux_qs_idle ops' _ (aux_qs_run ops _ aux_qs_init) hs hq hb
  simpa only [Qs.run, List.foldl_append] using this

example : let s := Qs.init.run [.send 0, .exit, .get 0, .lock 0, .add 0, .signal 0, .stop, .writer, .join, .free, .null, .send 0]
    (s.bad, s.ended, s.refused, s.stop) = (false, true, [1], .nulled) := by decide +kernel

/-- **C130**, part: once it was told to end, the thread that writes ends, as soon as a thread that holds its mutex and itself went on. -/
theorem C130_ends_partial (ops : List QsOp) (h : (Qs.init.run ops).stop = .signalled) :
    ∃ ops' : List QsOp, ops'.length ≤ 2 ∧ (∀ op ∈ ops', op = .writer ∨ ∃ t, op = .add t ∧ (Qs.init.run ops).owner = some t) ∧
      (Qs.init.run (ops ++ ops')).ended = true := by
  have hi := aux_qs_run ops _ aux_qs_init
  have hrun : ∀ l, Qs.init.run (ops ++ l) = (Qs.init.run ops).run l := by intro l; simp [Qs.run, List.foldl_append]
  generalize hs : Qs.init.run ops = s at *
  rcases ho : s.owner with _ | t
  · refine ⟨[.writer], by simp, by simp, ?_⟩
    rw [hrun]
    simp only [Qs.run, List.foldl_cons, List.foldl_nil, Qs.step, ho, h]
    split <;> simp_all
  · obtain ⟨m, hm⟩ : ∃ m, s.senders t = .locked m := by
      have := hi.owner1 t ho
      cases hx : s.senders t <;> simp_all [qsLocked]
    refine ⟨[.add t, .writer], by simp, ?_, ?_⟩
    · intro op hop
      simp only [List.mem_cons, List.not_mem_nil, or_false] at hop
      rcases hop with hop | hop
      · exact Or.inr ⟨t, hop, rfl⟩
      · exact Or.inl hop
    · rw [hrun]
      simp only [Qs.run, List.foldl_cons, List.foldl_nil, Qs.step, hm, Qs.setSender, h]
      split <;> simp_all

example : (Qs.init.run [.send 0, .exit, .stop]).stop = .signalled := by decide +kernel

/-- A call that passed the checks finds NULL, or the released state. -/
theorem C130_null : (Qs.init.run [.send 0, .exit, .stop, .writer, .join, .free, .null, .get 0, .lock 0]).bad = true ∧
    (Qs.init.run [.send 0, .get 0, .exit, .stop, .writer, .join, .free, .lock 0]).bad = true := by decide +kernel

theorem aux_qs_endedRun (ops : List QsOp) : ∀ s : Qs, s.ended = true → (s.run ops).written = s.written ∧ (s.run ops).ended = true := by
  induction ops with
  | nil => intro s h; exact ⟨rfl, h⟩
  | cons o ops ih =>
    intro s h
    have hk : (s.step o).written = s.written ∧ (s.step o).ended = true := by
      cases o <;> simp only [Qs.step, Qs.setSender] <;> repeat' split
      all_goals first
        | exact ⟨rfl, h⟩
        | grind
    have := ih (s.step o) hk.2
    exact ⟨this.1.trans hk.1, this.2⟩

/-- A message that was accepted is not written if the context ends before; nothing that follows writes it. -/
theorem C130_lost (ops : List QsOp) : let s := Qs.init.run ([.send 0, .get 0, .lock 0, .add 0, .exit, .stop, .writer] ++ ops)
    0 ∈ s.accepted ∧ s.written = [] := by
  have hacc : ∀ (ops : List QsOp) (s : Qs), 0 ∈ s.accepted → 0 ∈ (s.run ops).accepted := by
    intro ops
    induction ops with
    | nil => intro s h; exact h
    | cons o ops ih =>
      intro s h
      refine ih (s.step o) ?_
      cases o <;> simp only [Qs.step, Qs.setSender] <;> repeat' split
      all_goals first
        | exact h
        | grind
  have h1 := hacc ops (Qs.init.run [.send 0, .get 0, .lock 0, .add 0, .exit, .stop, .writer]) (by decide +kernel)
  have h2 := aux_qs_endedRun ops (Qs.init.run [.send 0, .get 0, .lock 0, .add 0, .exit, .stop, .writer]) (by decide +kernel)
  have h3 : (Qs.init.run [.send 0, .get 0, .lock 0, .add 0, .exit, .stop, .writer]).written = [] := by decide +kernel
  rw [h3] at h2
  simp only [Qs.run, List.foldl_append] at h1 h2 ⊢
  exact ⟨h1, h2.1⟩

/-- **C130**, the full property. -/
def C130_statement : Prop :=
  ∀ ops : List QsOp, let s := Qs.init.run ops
    s.bad = false ∧ s.written <+: s.accepted ∧ (s.ended = true → s.written = s.accepted)

theorem C130_statement_false : ¬ C130_statement := by
  intro h
  have := (h [.send 0, .exit, .stop, .writer, .join, .free, .null, .get 0, .lock 0]).1
  rw [C130_null.1] at this
  cases this

end Verif.Props
