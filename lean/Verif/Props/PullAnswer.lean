import Verif.Spec.PullAnswer
/-!
# C110: requests answered through the pull API
-/
namespace Verif.Props
open Verif.Model Verif.Spec

def aux_pq_items (qs : List PqQueue) (r : Nat) : Nat := match qs with
  | [] => 0
  | q :: l => q.items.count r + aux_pq_items l r

def aux_pq_mids (m : List (PqKind × Nat × Nat)) (r : Nat) : Nat := (m.map (fun x => x.2.1)).count r

structure aux_pq_I (s : PqState) : Prop where
  cnt : ∀ r, pqAnswers s r + aux_pq_mids s.mid r + aux_pq_items s.queues r + s.held.count r = if r < s.count then 1 else 0
  mid : ∀ m ∈ s.mid, s.cur = some m.2.2
  pulls : ∀ g ∈ s.pulls, s.cur = some g
  cur : ∀ g, s.cur = some g → ∃ q, s.queues[g]? = some q ∧ q.live = true
  /-- the queues being removed -/
  clean : ∀ c ∈ s.cleaning, s.cur ≠ some c.1 ∧ c.2 = false ∧ ∃ q, s.queues[c.1]? = some q ∧ q.live = true ∧ q.items = []
  nodup : (s.cleaning.map (fun c => c.1)).Nodup
  bad : s.bad = false

theorem aux_pq_items_set (q' : PqQueue) (r : Nat) : ∀ (qs : List PqQueue) (g : Nat) (q : PqQueue), qs[g]? = some q →
    aux_pq_items (qs.set g q') r + q.items.count r = aux_pq_items qs r + q'.items.count r := by
  intro qs
  induction qs with
  | nil => intro g q h; simp at h
  | cons y qs ih =>
    intro g q h
    cases g with
    | zero => simp at h; subst h; simp [aux_pq_items]; omega
    | succ g => simp at h; have := ih g q h; simp [aux_pq_items]; omega

theorem aux_pq_items_app (r : Nat) : ∀ (qs : List PqQueue), aux_pq_items (qs ++ [({} : PqQueue)]) r = aux_pq_items qs r := by
  intro qs
  induction qs with
  | nil => simp [aux_pq_items]
  | cons y qs ih => simp [aux_pq_items, ih]

theorem aux_pq_items_nil (r : Nat) : ∀ (qs : List PqQueue), (∀ q ∈ qs, q.items = []) → aux_pq_items qs r = 0 := by
  intro qs
  induction qs with
  | nil => intro _; rfl
  | cons y qs ih => intro h; simp [aux_pq_items, h y (List.mem_cons_self ..), ih (fun q hq => h q (List.mem_cons_of_mem _ hq))]

theorem aux_pq_mids_erase (r : Nat) : ∀ (m : List (PqKind × Nat × Nat)) (i : Nat) (x : PqKind × Nat × Nat), m[i]? = some x →
    aux_pq_mids m r = aux_pq_mids (m.eraseIdx i) r + if r = x.2.1 then 1 else 0 := by
  intro m
  induction m with
  | nil => intro i x h; simp at h
  | cons y m ih =>
    intro i x h
    cases i with
    | zero =>
      simp at h; subst h
      simp only [aux_pq_mids, List.eraseIdx_zero, List.tail_cons, List.map_cons, List.count_cons, beq_iff_eq]
      by_cases he : r = y.2.1
      · simp [he]
      · simp [he, Ne.symm he]
    | succ i =>
      simp at h
      have := ih i x h
      simp only [aux_pq_mids, List.eraseIdx_cons_succ, List.map_cons, List.count_cons] at this ⊢
      omega

theorem aux_pq_count (b : Nat) (l : List Nat) (a : Nat) : (b :: l).count a = l.count a + if a = b then 1 else 0 := by
  rw [List.count_cons]
  by_cases hab : a = b
  · subst hab; simp
  · simp [hab, Ne.symm hab]

theorem aux_pq_ans (s : PqState) (r : Nat) (b : Bool) (a : Nat) :
    ((((r, b) :: s.answers).filter (fun x => x.1 == a)).length) = pqAnswers s a + if a = r then 1 else 0 := by
  unfold pqAnswers
  rw [List.filter_cons]
  by_cases h : a = r
  · subst h; simp
  · simp [h, Ne.symm h]

theorem aux_pq_set_get {qs : List PqQueue} {g : Nat} {q : PqQueue} (h : qs[g]? = some q) (q' : PqQueue) (k : Nat) :
    (qs.set g q')[k]? = if k = g then some q' else qs[k]? := by
  have hl : g < qs.length := by
    rcases Nat.lt_or_ge g qs.length with hl | hl
    · exact hl
    · rw [List.getElem?_eq_none hl] at h; cases h
  rw [List.getElem?_set]
  by_cases hk : k = g
  · subst hk; simp [hl]
  · simp [hk, Ne.symm hk]

theorem aux_pq_app_get {qs : List PqQueue} {g : Nat} {q : PqQueue} (h : qs[g]? = some q) : (qs ++ [({} : PqQueue)])[g]? = some q := by
  have hl : g < qs.length := by
    rcases Nat.lt_or_ge g qs.length with hl | hl
    · exact hl
    · rw [List.getElem?_eq_none hl] at h; cases h
  rw [List.getElem?_append_left hl]; exact h

/-- A handler queues its event. -/
theorem aux_pq_push {s : PqState} (I : aux_pq_I s) {i : Nat} {m : PqKind × Nat × Nat} (hm : s.mid[i]? = some m) {g : Nat} (hg : s.cur = some g) :
    aux_pq_I (PqState.push { s with mid := s.mid.eraseIdx i } g m.2.1) := by
  obtain ⟨q, hq, hl⟩ := I.cur g hg
  simp only [PqState.push, hq]
  rw [if_pos hl]
  refine ⟨?_, ?_, I.pulls, ?_, ?_, I.nodup, I.bad⟩
  · intro r
    have h1 := I.cnt r
    have h2 := aux_pq_mids_erase r s.mid i m hm
    have h3 := aux_pq_items_set { q with items := q.items ++ [m.2.1] } r s.queues g q hq
    simp only [List.count_append, aux_pq_count m.2.1 [], List.count_nil] at h3
    show pqAnswers s r + aux_pq_mids (s.mid.eraseIdx i) r + aux_pq_items (s.queues.set g _) r + s.held.count r = if r < s.count then 1 else 0
    omega
  · intro x hx; exact I.mid x (List.mem_of_mem_eraseIdx hx)
  · intro k hk
    obtain ⟨p, hp, hpl⟩ := I.cur k hk
    show ∃ q', (s.queues.set g _)[k]? = some q' ∧ _
    rw [aux_pq_set_get hq]
    split
    · exact ⟨_, rfl, hl⟩
    · exact ⟨p, hp, hpl⟩
  · intro c hc
    obtain ⟨h1, h2, p, hp, hpl, hpi⟩ := I.clean c hc
    refine ⟨h1, h2, p, ?_, hpl, hpi⟩
    show (s.queues.set g _)[c.1]? = some p
    rw [aux_pq_set_get hq, if_neg (by intro he; rw [he] at h1; exact h1 hg)]
    exact hp

theorem aux_pq_step {s : PqState} (I : aux_pq_I s) (op : PqOp) (hd : PqDocumented s op) (hc : PqCareful s op) : aux_pq_I (s.step op) := by
  cases op with
  | init =>
    simp only [PqState.step]
    split
    · exact I
    · rename_i hn
      refine ⟨?_, ?_, ?_, ?_, ?_, I.nodup, I.bad⟩
      · intro r
        have h1 := I.cnt r
        show pqAnswers s r + aux_pq_mids s.mid r + aux_pq_items (s.queues ++ [({} : PqQueue)]) r + s.held.count r = _
        rw [aux_pq_items_app]; exact h1
      · intro m hm
        have := I.mid m hm
        rw [hn] at this; cases this
      · intro g hg
        have := I.pulls g hg
        rw [hn] at this; cases this
      · intro g hg
        injection hg with hg; subst hg
        exact ⟨{}, by simp, rfl⟩
      · intro c hcc
        obtain ⟨h1, h2, p, hp, hpl, hpi⟩ := I.clean c hcc
        refine ⟨?_, h2, p, aux_pq_app_get hp, hpl, hpi⟩
        intro he
        injection he with he
        rw [← he, List.getElem?_eq_none (Nat.le_refl _)] at hp
        cases hp
  | mask k on =>
    cases k with
    | start => exact ⟨I.cnt, I.mid, I.pulls, I.cur, I.clean, I.nodup, I.bad⟩
    | close => exact ⟨I.cnt, I.mid, I.pulls, I.cur, I.clean, I.nodup, I.bad⟩
  | request k plain =>
    have ans : ∀ b, aux_pq_I { s with count := s.count + 1, answers := (s.count, b) :: s.answers } := by
      intro b
      refine ⟨?_, I.mid, I.pulls, I.cur, I.clean, I.nodup, I.bad⟩
      intro r
      have h1 := I.cnt r
      show ((((s.count, b) :: s.answers).filter (fun x => x.1 == r)).length) + aux_pq_mids s.mid r + aux_pq_items s.queues r + s.held.count r =
        if r < s.count + 1 then 1 else 0
      rw [aux_pq_ans]
      by_cases hr : r = s.count
      · subst hr; simp at h1 ⊢; omega
      · have : (r < s.count + 1) ↔ (r < s.count) := by omega
        simp only [if_neg hr, this]; omega
    simp only [PqState.step]
    split
    · exact ans _
    · rename_i g hg
      split
      · exact ans _
      · refine ⟨?_, ?_, I.pulls, I.cur, I.clean, I.nodup, I.bad⟩
        · intro r
          have h1 := I.cnt r
          show pqAnswers s r + aux_pq_mids (s.mid ++ [(k, s.count, g)]) r + aux_pq_items s.queues r + s.held.count r = if r < s.count + 1 then 1 else 0
          have h2 : aux_pq_mids (s.mid ++ [(k, s.count, g)]) r = aux_pq_mids s.mid r + if r = s.count then 1 else 0 := by
            simp only [aux_pq_mids, List.map_append, List.count_append, List.map_cons, List.map_nil]
            rw [aux_pq_count, List.count_nil]; omega
          rw [h2]
          by_cases hr : r = s.count
          · subst hr; simp at h1 ⊢; omega
          · have : (r < s.count + 1) ↔ (r < s.count) := by omega
            simp only [if_neg hr, this]; omega
        · intro m hm
          rcases List.mem_append.1 hm with hm | hm
          · exact I.mid m hm
          · rw [List.mem_singleton] at hm; subst hm; exact hg
  | queue i =>
    simp only [PqState.step]
    split
    · exact I
    · rename_i r g hm
      have hg := I.mid _ (List.mem_of_getElem? hm)
      split
      · rename_i hn; rw [hn] at hg; cases hg
      · rename_i g' hg'; exact aux_pq_push I hm hg'
    · rename_i r g hm
      have hg := I.mid _ (List.mem_of_getElem? hm)
      exact aux_pq_push I hm hg
  | next =>
    simp only [PqState.step]
    split
    · exact I
    · rename_i g hg
      refine ⟨I.cnt, I.mid, ?_, I.cur, I.clean, I.nodup, I.bad⟩
      intro k hk
      rcases List.mem_append.1 hk with hk | hk
      · exact I.pulls k hk
      · rw [List.mem_singleton] at hk; subst hk; exact hg
  | take i =>
    simp only [PqState.step]
    split
    · exact I
    · rename_i g hp
      have hg := I.pulls g (List.mem_of_getElem? hp)
      obtain ⟨q, hq, hl⟩ := I.cur g hg
      rw [hq]
      simp only []
      rw [if_pos hl]
      split
      · exact I
      · rename_i r l hi
        refine ⟨?_, I.mid, ?_, ?_, ?_, I.nodup, I.bad⟩
        · intro a
          have h1 := I.cnt a
          have h3 := aux_pq_items_set { q with items := l } a s.queues g q hq
          rw [hi, aux_pq_count] at h3
          show pqAnswers s a + aux_pq_mids s.mid a + aux_pq_items (s.queues.set g _) a + (r :: s.held).count a = if a < s.count then 1 else 0
          rw [aux_pq_count]
          simp only at h3
          omega
        · intro k hk; exact I.pulls k (List.mem_of_mem_eraseIdx hk)
        · intro k hk
          obtain ⟨p, hp', hpl⟩ := I.cur k hk
          show ∃ q', (s.queues.set g _)[k]? = some q' ∧ _
          rw [aux_pq_set_get hq]
          split
          · exact ⟨_, rfl, hl⟩
          · exact ⟨p, hp', hpl⟩
        · intro c hcc
          obtain ⟨h1, h2, p, hp', hpl, hpi⟩ := I.clean c hcc
          refine ⟨h1, h2, p, ?_, hpl, hpi⟩
          show (s.queues.set g _)[c.1]? = some p
          rw [aux_pq_set_get hq, if_neg (by intro he; rw [he] at h1; exact h1 hg)]
          exact hp'
  | answer r yes =>
    refine ⟨?_, I.mid, I.pulls, I.cur, I.clean, I.nodup, I.bad⟩
    intro a
    have h1 := I.cnt a
    show ((((r, yes) :: s.answers).filter (fun x => x.1 == a)).length) + aux_pq_mids s.mid a + aux_pq_items s.queues a + (s.held.erase r).count a = if a < s.count then 1 else 0
    rw [aux_pq_ans, List.count_erase]
    have h2 := List.count_pos_iff.2 hd
    by_cases har : a = r
    · subst har; simp; omega
    · simp [har, Ne.symm har]; omega
  | cleanup =>
    obtain ⟨hm, hp, hq⟩ := hc
    simp only [PqState.step]
    split
    · exact I
    · rename_i g hg
      refine ⟨I.cnt, ?_, ?_, ?_, ?_, ?_, I.bad⟩
      · intro m h; simp only [hm] at h; cases h
      · intro k h; simp only [hp] at h; cases h
      · intro k h; cases h
      · intro c h
        rcases List.mem_append.1 h with h | h
        · obtain ⟨_, h2, h3⟩ := I.clean c h
          exact ⟨by simp, h2, h3⟩
        · rw [List.mem_singleton] at h; subst h
          obtain ⟨q, h1, h2⟩ := I.cur g hg
          exact ⟨by simp, rfl, q, h1, h2, hq q (List.mem_of_getElem? h1)⟩
      · show ((s.cleaning ++ [(g, false)]).map (fun c => c.1)).Nodup
        rw [List.map_append, List.nodup_append]
        refine ⟨I.nodup, by simp, ?_⟩
        intro a ha b hb hab
        simp at hb
        obtain ⟨c, hc1, hc2⟩ := List.mem_map.1 ha
        exact (I.clean c hc1).1 (by rw [hg, hc2, hab, hb])
  | clean i =>
    simp only [PqState.step]
    split
    · exact I
    · rename_i g seen hcl
      obtain ⟨h1, h2, q, hq, hl, hi⟩ := I.clean _ (List.mem_of_getElem? hcl)
      simp only at h1 h2 hq
      rw [hq]
      simp only []
      rw [if_pos hl, hi, h2]
      simp only []
      refine ⟨?_, I.mid, I.pulls, ?_, ?_, ?_, I.bad⟩
      · intro a
        have h3 := I.cnt a
        have h4 := aux_pq_items_set { q with items := [], live := false } a s.queues g q hq
        rw [hi] at h4
        show pqAnswers s a + aux_pq_mids s.mid a + aux_pq_items (s.queues.set g _) a + s.held.count a = if a < s.count then 1 else 0
        simp only at h4 ⊢
        omega
      · intro k hk
        obtain ⟨p, hp, hpl⟩ := I.cur k hk
        refine ⟨p, ?_, hpl⟩
        show (s.queues.set g _)[k]? = some p
        rw [aux_pq_set_get hq, if_neg (by intro he; subst he; exact h1 hk)]
        exact hp
      · intro c hcc
        obtain ⟨k1, k2, p, hp, hpl, hpi⟩ := I.clean c (List.mem_of_mem_eraseIdx hcc)
        refine ⟨k1, k2, p, ?_, hpl, hpi⟩
        show (s.queues.set g _)[c.1]? = some p
        rw [aux_pq_set_get hq, if_neg ?_]
        · exact hp
        · intro he
          -- each queue is removed once
          have hnd := I.nodup
          have key : ∀ (l : List (Nat × Bool)) (i : Nat), (l.map (fun c => c.1)).Nodup → l[i]? = some (g, seen) → ∀ c ∈ l.eraseIdx i, c.1 ≠ g := by
            intro l
            induction l with
            | nil => intro i _ h; simp at h
            | cons y l ih =>
              intro i hnd h c hc
              rw [List.map_cons, List.nodup_cons] at hnd
              cases i with
              | zero =>
                simp at h; subst h
                simp at hc
                intro he
                exact hnd.1 (List.mem_map.2 ⟨c, hc, he⟩)
              | succ i =>
                simp at h
                rw [List.eraseIdx_cons_succ] at hc
                rcases List.mem_cons.1 hc with hc | hc
                · subst hc
                  intro he
                  exact hnd.1 (List.mem_map.2 ⟨(g, seen), List.mem_of_getElem? h, he.symm⟩)
                · exact ih i hnd.2 h c hc
          exact key s.cleaning i hnd hcl c hcc he
      · show ((s.cleaning.eraseIdx i).map (fun c => c.1)).Nodup
        exact I.nodup.sublist ((List.eraseIdx_sublist ..).map _)

theorem aux_pq_run : ∀ (ops : List PqOp) (s : PqState), aux_pq_I s → PqObeys (fun s op => PqDocumented s op ∧ PqCareful s op) s ops →
    aux_pq_I (ops.foldl PqState.step s) := by
  intro ops
  induction ops with
  | nil => intro s I _; exact I
  | cons op ops ih => intro s I h; exact ih _ (aux_pq_step I op h.1.1 h.1.2) h.2

theorem aux_pq_start : aux_pq_I {} := by
  refine ⟨?_, ?_, ?_, ?_, ?_, ?_, rfl⟩
  · intro r; simp [pqAnswers, aux_pq_mids, aux_pq_items]
  · intro m h; cases h
  · intro m h; cases h
  · intro m h; cases h
  · intro m h; cases h
  · exact List.nodup_nil

/-- However the threads run, a request of the peer to start or close a channel is answered once, and no released queue is used. -/
def C110_statement : Prop := ∀ ops : List PqOp, PqObeys PqDocumented {} ops → PqSound (pqRun ops)

/-- What is missing: the pull API removed while it is in use. -/
theorem C110_answered_partial (ops : List PqOp) (h : PqObeys (fun s op => PqDocumented s op ∧ PqCareful s op) {} ops) : PqSound (pqRun ops) := by
  have I := aux_pq_run ops {} aux_pq_start h
  refine ⟨I.bad, ?_, ?_, ?_⟩
  · intro r
    have := I.cnt r
    change pqAnswers (pqRun ops) r + _ + _ + _ = _ at this
    split at this <;> omega
  · intro r hr
    have := I.cnt r
    change pqAnswers (pqRun ops) r + _ + _ + _ = if r < (pqRun ops).count then 1 else 0 at this
    rw [if_neg (by omega)] at this
    omega
  · intro ⟨hm, hh, hq⟩ r hr
    have := I.cnt r
    change pqAnswers (pqRun ops) r + aux_pq_mids (pqRun ops).mid r + aux_pq_items (pqRun ops).queues r + (pqRun ops).held.count r =
      if r < (pqRun ops).count then 1 else 0 at this
    rw [hm, hh, aux_pq_items_nil r _ hq, if_pos hr] at this
    simpa [aux_pq_mids] using this

/-- Only the application refuses a request, whatever happens. -/
theorem C110_refused (ops : List PqOp) (r : Nat) (h : (r, false) ∈ (pqRun ops).answers) :
    .answer r false ∈ ops ∨ ∃ k, .request k false ∈ ops := by
  have key : ∀ (ops : List PqOp) (s : PqState), (r, false) ∈ (ops.foldl PqState.step s).answers →
      (r, false) ∈ s.answers ∨ .answer r false ∈ ops ∨ ∃ k, .request k false ∈ ops := by
    intro ops
    induction ops with
    | nil => intro s h; exact .inl h
    | cons op ops ih =>
      intro s h
      rcases ih _ h with h | h | ⟨k, h⟩
      · have push : ∀ (t : PqState) (g r : Nat), (t.push g r).answers = t.answers := by
          intro t g r
          unfold PqState.push
          split
          · rfl
          · split <;> rfl
        cases op with
        | request k plain =>
          simp only [PqState.step] at h
          split at h
          · rcases List.mem_cons.1 h with h | h
            · injection h with h1 h2; subst h2; exact .inr (.inr ⟨k, List.mem_cons_self ..⟩)
            · exact .inl h
          · split at h
            · rcases List.mem_cons.1 h with h | h
              · injection h with h1 h2; cases h2
              · exact .inl h
            · exact .inl h
        | answer a yes =>
          rcases List.mem_cons.1 h with h | h
          · injection h with h1 h2; subst h1; subst h2; exact .inr (.inl (List.mem_cons_self ..))
          · exact .inl h
        | init => simp only [PqState.step] at h; split at h <;> exact .inl h
        | mask k on => cases k <;> exact .inl h
        | queue i =>
          simp only [PqState.step] at h
          split at h
          · exact .inl h
          · split at h
            · exact .inl h
            · rw [push] at h; exact .inl h
          · rw [push] at h; exact .inl h
        | next => simp only [PqState.step] at h; split at h <;> exact .inl h
        | take i =>
          simp only [PqState.step] at h
          split at h
          · exact .inl h
          · split at h
            · exact .inl h
            · split at h
              · split at h <;> exact .inl h
              · exact .inl h
        | cleanup => simp only [PqState.step] at h; split at h <;> exact .inl h
        | clean i =>
          simp only [PqState.step] at h
          split at h
          · exact .inl h
          · split at h
            · exact .inl h
            · split at h
              · split at h <;> exact .inl h
              · exact .inl h
      · exact .inr (.inl (List.mem_cons_of_mem _ h))
      · exact .inr (.inr ⟨k, List.mem_cons_of_mem _ h⟩)
  rcases key ops {} h with h | h
  · cases h
  · exact h

def aux_pq_case : List PqOp :=
  [.init, .request .start false, .queue 0, .next, .take 0, .request .close false, .answer 0 false, .queue 0, .mask .start true, .request .start false,
   .next, .take 0, .answer 1 true, .cleanup, .clean 0]

example : PqObeys (fun s op => PqDocumented s op ∧ PqCareful s op) {} aux_pq_case ∧ PqQuiet (pqRun aux_pq_case) ∧
    (pqRun aux_pq_case).answers = [(1, true), (2, true), (0, false)] := by
  simp [aux_pq_case, PqObeys, PqDocumented, PqCareful, PqQuiet, pqRun, PqState.step, PqState.masked, PqState.push, List.eraseIdx]

/-- The pull API is removed with a request in the queue: the peer never gets an answer. -/
theorem C110_lost : ∃ ops, PqObeys PqDocumented {} ops ∧ PqQuiet (pqRun ops) ∧ (pqRun ops).cleaning = [] ∧ 0 < (pqRun ops).count ∧ pqAnswers (pqRun ops) 0 = 0 := by
  refine ⟨[.init, .request .close true, .queue 0, .cleanup, .clean 0, .clean 0, .clean 0], ?_, ?_, ?_, ?_, ?_⟩
  · simp [PqObeys, PqDocumented]
  · simp [PqQuiet, pqRun, PqState.step, PqState.masked, PqState.push, List.eraseIdx]
  · decide +kernel
  · decide +kernel
  · decide +kernel

/-- Removed while a handler makes an event of a close request: the handler uses the queue after its release. -/
theorem C110_released : ∃ ops, PqObeys PqDocumented {} ops ∧ (pqRun ops).bad = true :=
  ⟨[.init, .request .close true, .cleanup, .clean 0, .queue 0], by simp [PqObeys, PqDocumented], by decide +kernel⟩

/-- Removed while the application waits for an event: the wait goes on in a queue that is released. -/
theorem C110_waiting : ∃ ops, PqObeys PqDocumented {} ops ∧ (∀ op ∈ ops, ∀ k p, op ≠ .request k p) ∧ (pqRun ops).bad = true :=
  ⟨[.init, .next, .cleanup, .clean 0, .take 0], by simp [PqObeys, PqDocumented], by simp, by decide +kernel⟩

/-- The first removal waits for an event in the first queue, and nobody can put one there. -/
structure aux_pq_J (s : PqState) : Prop where
  c : s.cleaning[0]? = some (0, true)
  q : s.queues[0]? = some ⟨[], true⟩
  cur : s.cur ≠ some 0
  mid : ∀ m ∈ s.mid, m.2.2 ≠ 0
  rest : ∀ i g b, s.cleaning[i + 1]? = some (g, b) → g ≠ 0

theorem aux_pq_J_push {s : PqState} (J : aux_pq_J s) (g r : Nat) (hg : g ≠ 0) : aux_pq_J (s.push g r) := by
  unfold PqState.push
  split
  · exact ⟨J.c, J.q, J.cur, J.mid, J.rest⟩
  · split
    · exact ⟨J.c, by show (s.queues.set g _)[0]? = _; rw [List.getElem?_set_ne hg]; exact J.q, J.cur, J.mid, J.rest⟩
    · exact ⟨J.c, J.q, J.cur, J.mid, J.rest⟩

theorem aux_pq_J_step {s : PqState} (J : aux_pq_J s) (op : PqOp) : aux_pq_J (s.step op) := by
  have hlen : 0 < s.queues.length := by
    rcases Nat.eq_zero_or_pos s.queues.length with h | h
    · have := J.q
      rw [List.getElem?_eq_none (by omega)] at this; cases this
    · exact h
  have hclen : 0 < s.cleaning.length := by
    rcases Nat.eq_zero_or_pos s.cleaning.length with h | h
    · have := J.c
      rw [List.getElem?_eq_none (by omega)] at this; cases this
    · exact h
  cases op with
  | init =>
    simp only [PqState.step]
    split
    · exact J
    · refine ⟨J.c, ?_, ?_, J.mid, J.rest⟩
      · show (s.queues ++ [_])[0]? = _
        rw [List.getElem?_append_left hlen]; exact J.q
      · intro h; injection h with h; omega
  | mask k on => cases k <;> exact ⟨J.c, J.q, J.cur, J.mid, J.rest⟩
  | request k plain =>
    simp only [PqState.step]
    split
    · exact ⟨J.c, J.q, J.cur, J.mid, J.rest⟩
    · rename_i g hg
      split
      · exact ⟨J.c, J.q, J.cur, J.mid, J.rest⟩
      · refine ⟨J.c, J.q, J.cur, ?_, J.rest⟩
        intro m hm
        rcases List.mem_append.1 hm with hm | hm
        · exact J.mid m hm
        · rw [List.mem_singleton] at hm; subst hm
          intro h; exact J.cur (by rw [hg]; exact congrArg some h)
  | queue i =>
    have hs : aux_pq_J { s with mid := s.mid.eraseIdx i } := ⟨J.c, J.q, J.cur, fun m hm => J.mid m (List.mem_of_mem_eraseIdx hm), J.rest⟩
    simp only [PqState.step]
    split
    · exact J
    · split
      · exact hs
      · rename_i g hg
        exact aux_pq_J_push hs g _ (fun h => J.cur (by rw [hg, h]))
    · rename_i hm
      exact aux_pq_J_push hs _ _ (J.mid _ (List.mem_of_getElem? hm))
  | next =>
    simp only [PqState.step]
    split <;> exact ⟨J.c, J.q, J.cur, J.mid, J.rest⟩
  | take i =>
    simp only [PqState.step]
    split
    · exact J
    · rename_i g hp
      split
      · exact ⟨J.c, J.q, J.cur, J.mid, J.rest⟩
      · rename_i q hq
        split
        · split
          · exact J
          · rename_i r l hi
            refine ⟨J.c, ?_, J.cur, J.mid, J.rest⟩
            show (s.queues.set g _)[0]? = _
            rw [List.getElem?_set_ne]
            · exact J.q
            · intro h
              rw [h, J.q] at hq
              injection hq with hq
              rw [← hq] at hi; cases hi
        · exact ⟨J.c, J.q, J.cur, J.mid, J.rest⟩
  | answer r yes => exact ⟨J.c, J.q, J.cur, J.mid, J.rest⟩
  | cleanup =>
    simp only [PqState.step]
    split
    · exact J
    · rename_i g hg
      refine ⟨?_, J.q, by simp, J.mid, ?_⟩
      · show (s.cleaning ++ [_])[0]? = _
        rw [List.getElem?_append_left hclen]; exact J.c
      · intro i k b hk
        rcases Nat.lt_or_ge (i + 1) s.cleaning.length with hl | hl
        · change (s.cleaning ++ [_])[i + 1]? = _ at hk
          rw [List.getElem?_append_left hl] at hk
          exact J.rest i k b hk
        · change (s.cleaning ++ [_])[i + 1]? = _ at hk
          rw [List.getElem?_append_right hl] at hk
          have := List.mem_of_getElem? hk
          rw [List.mem_singleton] at this
          injection this with h1 h2
          subst h1
          intro h; exact J.cur (by rw [hg, h])
  | clean i =>
    simp only [PqState.step]
    cases i with
    | zero =>
      rw [J.c]
      simp only [J.q]
      exact J
    | succ i =>
      split
      · exact J
      · rename_i g seen hcl
        have hg := J.rest i g seen hcl
        have hset : ∀ (q : PqQueue), (s.queues.set g q)[0]? = some ⟨[], true⟩ := fun q => by rw [List.getElem?_set_ne hg]; exact J.q
        have hcs : ∀ b, (s.cleaning.set (i + 1) (g, b))[0]? = some (0, true) := fun b => by rw [List.getElem?_set_ne (by omega)]; exact J.c
        have hrs : ∀ b, ∀ k g' b', (s.cleaning.set (i + 1) (g, b))[k + 1]? = some (g', b') → g' ≠ 0 := by
          intro b k g' b' h
          rw [List.getElem?_set] at h
          split at h
          · split at h
            · injection h with h; injection h with h1 h2; subst h1; exact hg
            · cases h
          · exact J.rest k g' b' h
        split
        · exact ⟨J.c, J.q, J.cur, J.mid, J.rest⟩
        · split
          · split
            · refine ⟨?_, hset _, J.cur, J.mid, ?_⟩
              · show (s.cleaning.eraseIdx (i + 1))[0]? = _
                rw [List.getElem?_eraseIdx_of_lt (by omega)]; exact J.c
              · intro k g' b' h
                change (s.cleaning.eraseIdx (i + 1))[k + 1]? = _ at h
                rw [List.getElem?_eraseIdx] at h
                split at h
                · exact J.rest k g' b' h
                · exact J.rest (k + 1) g' b' h
            · exact J
            · exact ⟨hcs _, J.q, J.cur, J.mid, hrs _⟩
            · exact ⟨hcs _, hset _, J.cur, J.mid, hrs _⟩
          · exact ⟨J.c, J.q, J.cur, J.mid, J.rest⟩

/-- Removed while the application takes the last event: the removal waits for ever, whatever happens next. -/
theorem C110_stuck : ∃ ops, PqObeys PqDocumented {} ops ∧ (pqRun ops).bad = false ∧ (pqRun ops).cleaning.length = 1 ∧
    ∀ more : List PqOp, 0 < (pqRun (ops ++ more)).cleaning.length ∧ (pqRun (ops ++ more)).step (.clean 0) = pqRun (ops ++ more) := by
  refine ⟨[.init, .next, .request .close true, .queue 0, .cleanup, .clean 0, .take 0], by simp [PqObeys, PqDocumented], by decide +kernel,
    by decide +kernel, ?_⟩
  have start : aux_pq_J (pqRun [.init, .next, .request .close true, .queue 0, .cleanup, .clean 0, .take 0]) := by
    have hm : (pqRun [.init, .next, .request .close true, .queue 0, .cleanup, .clean 0, .take 0]).mid = [] := by decide +kernel
    have hl : (pqRun [.init, .next, .request .close true, .queue 0, .cleanup, .clean 0, .take 0]).cleaning.length = 1 := by decide +kernel
    refine ⟨by decide +kernel, by decide +kernel, by decide +kernel, ?_, ?_⟩
    · intro m h; rw [hm] at h; cases h
    · intro i g b h
      rw [List.getElem?_eq_none (by omega)] at h; cases h
  intro more
  have J : aux_pq_J (pqRun ([.init, .next, .request .close true, .queue 0, .cleanup, .clean 0, .take 0] ++ more)) := by
    unfold pqRun
    rw [List.foldl_append]
    have key : ∀ (more : List PqOp) (s : PqState), aux_pq_J s → aux_pq_J (more.foldl PqState.step s) := by
      intro more
      induction more with
      | nil => intro s h; exact h
      | cons op more ih => intro s h; exact ih _ (aux_pq_J_step h op)
    exact key more _ start
  constructor
  · rcases Nat.eq_zero_or_pos (pqRun ([.init, .next, .request .close true, .queue 0, .cleanup, .clean 0, .take 0] ++ more)).cleaning.length with h | h
    · have := J.c
      rw [List.getElem?_eq_none (by omega)] at this; cases this
    · exact h
  · simp only [PqState.step, J.c, J.q]
    rfl

theorem C110_statement_false : ¬ C110_statement := by
  intro h
  obtain ⟨ops, ho, hb⟩ := C110_released
  have := (h ops ho).1
  rw [hb] at this; cases this

end Verif.Props
