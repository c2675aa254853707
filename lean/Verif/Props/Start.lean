import Verif.Spec.Start
/-!
# C28, C44 — channel start requests, profiles and masks
-/
namespace Verif.Props
open Verif.Model Verif.Spec

/-- **C28 (full statement, violated)**: whatever the peer, the masks and the application do, every request
that nobody has still to decide got exactly one answer, the others none; the channel of a request exists if
the answer was positive (until it is closed) and does not if it was negative; and no channel is used after
it was dropped. -/
def C28_statement : Prop :=
  ∀ ops : List StOp,
    let r := Starts.init.run ops
    (∀ req, req < r.2.received → (undecided req r.2 → answersTo req r.1 = []) ∧
      (¬ undecided req r.2 → (answersTo req r.1).length = 1)) ∧
    (∀ req, answersTo req r.1 = [true] → .closed req ∉ r.1 → ∃ c ∈ r.2.table, c.req = req) ∧
    (∀ req, answersTo req r.1 = [false] → ∀ c ∈ r.2.table, c.req ≠ req) ∧
    (∀ chan, .released chan ∉ r.1)

theorem aux_st_answers_append (req : Nat) (a b : List StEvent) :
    answersTo req (a ++ b) = answersTo req a ++ answersTo req b := by simp [answersTo]

/-! ## Lists of running requests -/

theorem aux_st_mem_erase {l : List StReq} {i : Nat} {r : StReq} (hr : l[i]? = some r)
    (hn : (l.map (·.req)).Nodup) (x : StReq) : x ∈ l.eraseIdx i ↔ x ∈ l ∧ x.req ≠ r.req := by
  induction l generalizing i with
  | nil => simp at hr
  | cons a l ih =>
    simp only [List.map_cons, List.nodup_cons] at hn
    cases i with
    | zero =>
      simp only [List.getElem?_cons_zero, Option.some.injEq] at hr
      subst hr
      simp only [List.eraseIdx_cons_zero, List.mem_cons]
      constructor
      · intro hx
        exact ⟨.inr hx, fun he => hn.1 (he ▸ List.mem_map_of_mem hx)⟩
      · rintro ⟨rfl | hx, hne⟩
        · exact absurd rfl hne
        · exact hx
    | succ i =>
      simp only [List.getElem?_cons_succ] at hr
      have hm : r.req ∈ l.map (·.req) := List.mem_map_of_mem (List.mem_of_getElem? hr)
      simp only [List.eraseIdx_cons_succ, List.mem_cons, ih hr hn.2]
      constructor
      · rintro (rfl | ⟨hx, hne⟩)
        · exact ⟨.inl rfl, fun he => hn.1 (he ▸ hm)⟩
        · exact ⟨.inr hx, hne⟩
      · rintro ⟨rfl | hx, hne⟩
        · exact .inl rfl
        · exact .inr ⟨hx, hne⟩

theorem aux_st_mem_set {l : List StReq} {i : Nat} {r r' : StReq} (hr : l[i]? = some r)
    (hn : (l.map (·.req)).Nodup) (x : StReq) : x ∈ l.set i r' ↔ x = r' ∨ (x ∈ l ∧ x.req ≠ r.req) := by
  induction l generalizing i with
  | nil => simp at hr
  | cons a l ih =>
    simp only [List.map_cons, List.nodup_cons] at hn
    cases i with
    | zero =>
      simp only [List.getElem?_cons_zero, Option.some.injEq] at hr
      subst hr
      simp only [List.set_cons_zero, List.mem_cons]
      constructor
      · rintro (rfl | hx)
        · exact .inl rfl
        · exact .inr ⟨.inr hx, fun he => hn.1 (he ▸ List.mem_map_of_mem hx)⟩
      · rintro (rfl | ⟨rfl | hx, hne⟩)
        · exact .inl rfl
        · exact absurd rfl hne
        · exact .inr hx
    | succ i =>
      simp only [List.getElem?_cons_succ] at hr
      have hm : r.req ∈ l.map (·.req) := List.mem_map_of_mem (List.mem_of_getElem? hr)
      simp only [List.set_cons_succ, List.mem_cons, ih hr hn.2]
      constructor
      · rintro (rfl | rfl | ⟨hx, hne⟩)
        · exact .inr ⟨.inl rfl, fun he => hn.1 (he ▸ hm)⟩
        · exact .inl rfl
        · exact .inr ⟨.inr hx, hne⟩
      · rintro (rfl | ⟨rfl | hx, hne⟩)
        · exact .inr (.inl rfl)
        · exact .inl rfl
        · exact .inr (.inr ⟨hx, hne⟩)

theorem aux_st_set_reqs (l : List StReq) (i : Nat) (r r' : StReq) (hr : l[i]? = some r)
    (he : r'.req = r.req) : (l.set i r').map (·.req) = l.map (·.req) := by
  induction l generalizing i with
  | nil => simp at hr
  | cons a l ih =>
    cases i with
    | zero =>
      simp only [List.getElem?_cons_zero, Option.some.injEq] at hr
      subst hr
      simp [he]
    | succ i =>
      simp only [List.getElem?_cons_succ] at hr
      simp [ih i hr]

theorem aux_st_inj {l : List StReq} (hn : (l.map (·.req)).Nodup) {a b : StReq} (ha : a ∈ l) (hb : b ∈ l)
    (he : a.req = b.req) : a = b := by
  induction l with
  | nil => simp at ha
  | cons x l ih =>
    simp only [List.map_cons, List.nodup_cons] at hn
    rcases List.mem_cons.mp ha with rfl | ha' <;> rcases List.mem_cons.mp hb with rfl | hb'
    · rfl
    · exact absurd (he ▸ List.mem_map_of_mem hb') hn.1
    · exact absurd (he ▸ List.mem_map_of_mem ha') hn.1
    · exact ih hn.2 ha' hb'

theorem aux_st_live {s : Starts} {chan : Nat} {c : StChan} (h : s.live chan = some c) :
    c ∈ s.table ∧ c.id = chan := by
  have h1 := List.mem_of_find?_eq_some h
  have h2 := List.find?_some h
  exact ⟨h1, by simpa using h2⟩

theorem aux_st_live_of {s : Starts} {c : StChan} (hc : c ∈ s.table)
    (hi : ∀ a ∈ s.table, ∀ b ∈ s.table, a.id = b.id → a = b) : s.live c.id = some c := by
  cases h : s.live c.id with
  | none =>
    have := List.find?_eq_none.mp h c hc
    simp at this
  | some d =>
    have hd := aux_st_live h
    rw [hi d hd.1 c hc hd.2]

/-- What C28 keeps true when the application is disciplined. -/
structure aux_st_Inv (log : List StEvent) (s : Starts) : Prop where
  und : ∀ req, undecided req s → req < s.received ∧ answersTo req log = []
  dec : ∀ req, req < s.received → ¬ undecided req s → ∃ b, answersTo req log = [b]
  new : ∀ req, s.received ≤ req → answersTo req log = []
  runs : (s.running.map (·.req)).Nodup
  disj : ∀ w ∈ s.waiting, ∀ r ∈ s.running, w.2 ≠ r.req
  num : ∀ a ∈ s.table, ∀ b ∈ s.table, a.num = b.num → a = b
  id : ∀ a ∈ s.table, ∀ b ∈ s.table, a.id = b.id → a = b
  req : ∀ a ∈ s.table, ∀ b ∈ s.table, a.req = b.req → a = b
  idLt : ∀ c ∈ s.table, c.id < s.created
  opened : ∀ c ∈ s.table, c.opened = true → answersTo c.req log = [true]
  pending : ∀ c ∈ s.table, c.opened = false →
    (∃ r ∈ s.running, r.phase = .handler c.id ∧ r.req = c.req) ∨ (c.id, c.req) ∈ s.waiting
  runC : ∀ r ∈ s.running, ∀ ch, r.phase = .handler ch →
    ∃ c ∈ s.table, c.id = ch ∧ c.req = r.req ∧ c.opened = false
  waitC : ∀ w ∈ s.waiting, ∃ c ∈ s.table, c.id = w.1 ∧ c.req = w.2 ∧ c.opened = false
  kept : ∀ req, answersTo req log = [true] → .closed req ∉ log → ∃ c ∈ s.table, c.req = req ∧ c.opened = true
  noRel : ∀ ch, .released ch ∉ log

/-- Events that say nothing about answers. -/
def aux_st_Quiet (ev : List StEvent) : Prop :=
  (∀ req, answersTo req ev = []) ∧ (∀ r, .closed r ∉ ev) ∧ (∀ c, .released c ∉ ev)

/-- Nothing changes but profiles, masks and quiet events. -/
theorem aux_st_quiet {log : List StEvent} {s : Starts} (h : aux_st_Inv log s) (ev : List StEvent)
    (hq : aux_st_Quiet ev) (ps : List String) (m : Nat) (d : List Nat) :
    aux_st_Inv (log ++ ev) { s with profiles := ps, masks := m, deferred := d } := by
  have ha : ∀ req, answersTo req (log ++ ev) = answersTo req log := by
    intro req; rw [aux_st_answers_append, hq.1, List.append_nil]
  refine ⟨?_, ?_, ?_, h.runs, h.disj, h.num, h.id, h.req, h.idLt, ?_, h.pending, h.runC, h.waitC, ?_, ?_⟩
  · intro req hu; rw [ha]; exact h.und req hu
  · intro req h1 h2; rw [ha]; exact h.dec req h1 h2
  · intro req h1; rw [ha]; exact h.new req h1
  · intro c hc ho; rw [ha]; exact h.opened c hc ho
  · intro req h1 h2
    rw [ha] at h1
    exact h.kept req h1 (fun hx => h2 (List.mem_append_left _ hx))
  · intro ch hm
    rcases List.mem_append.mp hm with hm | hm
    · exact h.noRel ch hm
    · exact hq.2.2 ch hm

/-- Events that answer one request. -/
def aux_st_Answers (ev : List StEvent) (req : Nat) (b : Bool) : Prop :=
  (∀ x, answersTo x ev = if x = req then [b] else []) ∧ (∀ r, .closed r ∉ ev) ∧ (∀ c, .released c ∉ ev)

/-- A request that is still with the masks is refused. -/
theorem aux_st_refuse {log : List StEvent} {s : Starts} (h : aux_st_Inv log s) {i : Nat} {r : StReq}
    (hr : s.running[i]? = some r) {k : Nat} (hp : r.phase = .masks k) (ev : List StEvent)
    (hev : aux_st_Answers ev r.req false) (cr : Nat) (hcr : s.created ≤ cr) :
    aux_st_Inv (log ++ ev) { s with running := s.running.eraseIdx i, created := cr } := by
  have hrm := List.mem_of_getElem? hr
  have hm := aux_st_mem_erase hr h.runs
  have hru : undecided r.req s := .inl ⟨r, hrm, rfl⟩
  have ha : ∀ req, req ≠ r.req → answersTo req (log ++ ev) = answersTo req log := by
    intro req hne; rw [aux_st_answers_append, hev.1, if_neg hne, List.append_nil]
  have ha' : answersTo r.req (log ++ ev) = [false] := by
    rw [aux_st_answers_append, hev.1, if_pos rfl, (h.und _ hru).2]; rfl
  have hu : ∀ req, undecided req { s with running := s.running.eraseIdx i, created := cr } ↔
      undecided req s ∧ req ≠ r.req := by
    intro req
    constructor
    · rintro (⟨x, hx, rfl⟩ | ⟨w, hw, rfl⟩)
      · exact ⟨.inl ⟨x, ((hm x).mp hx).1, rfl⟩, ((hm x).mp hx).2⟩
      · exact ⟨.inr ⟨w, hw, rfl⟩, h.disj w hw r hrm⟩
    · rintro ⟨⟨x, hx, rfl⟩ | ⟨w, hw, rfl⟩, hne⟩
      · exact .inl ⟨x, (hm x).mpr ⟨hx, hne⟩, rfl⟩
      · exact .inr ⟨w, hw, rfl⟩
  refine ⟨?_, ?_, ?_, ?_, ?_, h.num, h.id, h.req, fun c hc => Nat.lt_of_lt_of_le (h.idLt c hc) hcr, ?_, ?_,
    ?_, h.waitC, ?_, ?_⟩
  · intro req hx
    have hx := (hu req).mp hx
    rw [ha req hx.2]
    exact h.und req hx.1
  · intro req h1 h2
    by_cases hne : req = r.req
    · subst hne; exact ⟨_, ha'⟩
    · rw [ha req hne]
      exact h.dec req h1 (fun hx => h2 ((hu req).mpr ⟨hx, hne⟩))
  · intro req h1
    have : req ≠ r.req := by
      have := (h.und _ hru).1
      intro he
      subst he
      exact Nat.lt_irrefl _ (Nat.lt_of_lt_of_le this h1)
    rw [ha req this]
    exact h.new req h1
  · exact h.runs.sublist ((List.eraseIdx_sublist _ _).map _)
  · intro w hw x hx
    exact h.disj w hw x ((hm x).mp hx).1
  · intro c hc ho
    have h1 := h.opened c hc ho
    rw [ha]
    · exact h1
    · intro he
      rw [he, (h.und _ hru).2] at h1
      exact List.cons_ne_nil _ _ h1.symm
  · intro c hc ho
    rcases h.pending c hc ho with ⟨x, hx, h1, h2⟩ | hw
    · refine .inl ⟨x, (hm x).mpr ⟨hx, ?_⟩, h1, h2⟩
      intro he
      have hxr : x = r := by
        exact aux_st_inj h.runs hx hrm he
      rw [hxr, hp] at h1
      exact absurd h1 (by simp)
    · exact .inr hw
  · intro x hx ch hc
    exact h.runC x ((hm x).mp hx).1 ch hc
  · intro req h1 h2
    have : req ≠ r.req := by
      rintro rfl
      rw [ha'] at h1
      exact absurd h1 (by simp)
    rw [ha req this] at h1
    exact h.kept req h1 (fun hx => h2 (List.mem_append_left _ hx))
  · intro ch hc
    rcases List.mem_append.mp hc with hc | hc
    · exact h.noRel ch hc
    · exact hev.2.2 ch hc

/-- A request with a channel is answered. -/
theorem aux_st_answer {log : List StEvent} {s : Starts} (h : aux_st_Inv log s) {c : StChan} (hc : c ∈ s.table)
    (ho : c.opened = false) (R : List StReq) (W : List (Nat × Nat)) (hR : (R.map (·.req)).Nodup)
    (hRm : ∀ r, r ∈ R ↔ r ∈ s.running ∧ r.req ≠ c.req) (hWm : ∀ w, w ∈ W ↔ w ∈ s.waiting ∧ w.2 ≠ c.req)
    (action : Bool) :
    aux_st_Inv (log ++ ({ s with running := R, waiting := W }.answer c action).1)
      ({ s with running := R, waiting := W }.answer c action).2 := by
  have hcu : undecided c.req s := by
    rcases h.pending c hc ho with ⟨r, hr, _, h2⟩ | hw
    · exact .inl ⟨r, hr, h2⟩
    · exact .inr ⟨_, hw, rfl⟩
  have hu : ∀ (s' : Starts) req, s'.running = R → s'.waiting = W →
      (undecided req s' ↔ undecided req s ∧ req ≠ c.req) := by
    intro s' req h1 h2
    unfold undecided
    rw [h1, h2]
    constructor
    · rintro (⟨x, hx, rfl⟩ | ⟨w, hw, rfl⟩)
      · exact ⟨.inl ⟨x, ((hRm x).mp hx).1, rfl⟩, ((hRm x).mp hx).2⟩
      · exact ⟨.inr ⟨w, ((hWm w).mp hw).1, rfl⟩, ((hWm w).mp hw).2⟩
    · rintro ⟨⟨x, hx, rfl⟩ | ⟨w, hw, rfl⟩, hne⟩
      · exact .inl ⟨x, (hRm x).mpr ⟨hx, hne⟩, rfl⟩
      · exact .inr ⟨w, (hWm w).mpr ⟨hw, hne⟩, rfl⟩
  have ha : ∀ req, req ≠ c.req →
      answersTo req (log ++ [.answered c.req action]) = answersTo req log := by
    intro req hne
    rw [aux_st_answers_append]
    simp [answersTo, Ne.symm hne]
  have ha' : answersTo c.req (log ++ [.answered c.req action]) = [action] := by
    rw [aux_st_answers_append, (h.und _ hcu).2]
    simp [answersTo]
  have hnew : ∀ req, s.received ≤ req → req ≠ c.req := by
    intro req h1 he
    subst he
    exact Nat.lt_irrefl _ (Nat.lt_of_lt_of_le (h.und _ hcu).1 h1)
  have hopen : ∀ d ∈ s.table, d.opened = true → d.req ≠ c.req := by
    intro d hd hdo he
    have := h.req d hd c hc he
    rw [this, ho] at hdo
    contradiction
  have hpend : ∀ d ∈ s.table, d.opened = false → d ≠ c →
      (∃ r ∈ R, r.phase = .handler d.id ∧ r.req = d.req) ∨ (d.id, d.req) ∈ W := by
    intro d hd hdo hne
    have hdr : d.req ≠ c.req := fun he => hne (h.req d hd c hc he)
    rcases h.pending d hd hdo with ⟨r, hr, h1, h2⟩ | hw
    · exact .inl ⟨r, (hRm r).mpr ⟨hr, h2 ▸ hdr⟩, h1, h2⟩
    · exact .inr ((hWm _).mpr ⟨hw, hdr⟩)
  have hdisj : ∀ w ∈ W, ∀ r ∈ R, w.2 ≠ r.req := by
    intro w hw r hr
    exact h.disj w ((hWm w).mp hw).1 r ((hRm r).mp hr).1
  cases action with
  | true =>
    simp only [Starts.answer, if_true]
    have hmem : ∀ d, d ∈ (s.table.map fun d => if (d.id == c.id) = true then { d with opened := true } else d) ↔
        d = { c with opened := true } ∨ (d ∈ s.table ∧ d ≠ c) := by
      intro d
      rw [List.mem_map]
      constructor
      · rintro ⟨e, he, rfl⟩
        by_cases hid : e.id = c.id
        · have := h.id e he c hc hid
          subst this
          simp
        · have : e ≠ c := fun hx => hid (hx ▸ rfl)
          simp [hid, he, this]
      · rintro (rfl | ⟨hd, hne⟩)
        · exact ⟨c, hc, by simp⟩
        · refine ⟨d, hd, ?_⟩
          have : d.id ≠ c.id := fun hx => hne (h.id d hd c hc hx)
          simp [this]
    have hinj : ∀ {β : Type} (f : StChan → β), (f { c with opened := true } = f c) →
        (∀ a ∈ s.table, ∀ b ∈ s.table, f a = f b → a = b) → ∀ a b,
        (a = { c with opened := true } ∨ (a ∈ s.table ∧ a ≠ c)) →
        (b = { c with opened := true } ∨ (b ∈ s.table ∧ b ≠ c)) → f a = f b → a = b := by
      intro β f hf hin a b ha hb he
      rcases ha with rfl | ⟨ha, hna⟩ <;> rcases hb with rfl | ⟨hb, hnb⟩
      · rfl
      · rw [hf] at he; exact absurd (hin c hc b hb he).symm hnb
      · rw [hf] at he; exact absurd (hin a ha c hc he) hna
      · exact hin a ha b hb he
    refine ⟨?_, ?_, ?_, hR, hdisj, ?_, ?_, ?_, ?_, ?_, ?_, ?_, ?_, ?_, ?_⟩
    · intro req hx
      have hx := (hu _ req (by rfl) (by rfl)).mp hx
      rw [ha req hx.2]
      exact h.und req hx.1
    · intro req h1 h2
      by_cases hne : req = c.req
      · subst hne; exact ⟨_, ha'⟩
      · rw [ha req hne]
        exact h.dec req h1 (fun hx => h2 ((hu _ req (by rfl) (by rfl)).mpr ⟨hx, hne⟩))
    · intro req h1
      rw [ha req (hnew req h1)]
      exact h.new req h1
    · intro a ha b hb
      exact hinj (·.num) rfl h.num a b ((hmem a).mp ha) ((hmem b).mp hb)
    · intro a ha b hb
      exact hinj (·.id) rfl h.id a b ((hmem a).mp ha) ((hmem b).mp hb)
    · intro a ha b hb
      exact hinj (·.req) rfl h.req a b ((hmem a).mp ha) ((hmem b).mp hb)
    · intro d hd
      rcases (hmem d).mp hd with rfl | ⟨hd, _⟩
      · exact h.idLt c hc
      · exact h.idLt d hd
    · intro d hd hdo
      rcases (hmem d).mp hd with rfl | ⟨hd, _⟩
      · exact ha'
      · rw [ha _ (hopen d hd hdo)]
        exact h.opened d hd hdo
    · intro d hd hdo
      rcases (hmem d).mp hd with rfl | ⟨hd, hne⟩
      · exact absurd hdo (by simp)
      · exact hpend d hd hdo hne
    · intro r hr ch hch
      have hr := (hRm r).mp hr
      obtain ⟨d, hd, h1, h2, h3⟩ := h.runC r hr.1 ch hch
      refine ⟨d, (hmem d).mpr (.inr ⟨hd, ?_⟩), h1, h2, h3⟩
      rintro rfl
      exact hr.2 h2.symm
    · intro w hw
      have hw := (hWm w).mp hw
      obtain ⟨d, hd, h1, h2, h3⟩ := h.waitC w hw.1
      refine ⟨d, (hmem d).mpr (.inr ⟨hd, ?_⟩), h1, h2, h3⟩
      rintro rfl
      exact hw.2 h2.symm
    · intro req h1 h2
      by_cases hne : req = c.req
      · subst hne
        exact ⟨_, (hmem _).mpr (.inl rfl), rfl, rfl⟩
      · rw [ha req hne] at h1
        obtain ⟨d, hd, h3, h4⟩ := h.kept req h1 (fun hx => h2 (List.mem_append_left _ hx))
        refine ⟨d, (hmem d).mpr (.inr ⟨hd, ?_⟩), h3, h4⟩
        rintro rfl
        exact hne h3.symm
    · intro ch hch
      rcases List.mem_append.mp hch with hch | hch
      · exact h.noRel ch hch
      · simp at hch
  | false =>
    simp only [Starts.answer, Starts.remove, Bool.false_eq_true, if_false]
    have hmem : ∀ d, d ∈ (s.table.filter fun d => d.num != c.num) ↔ d ∈ s.table ∧ d ≠ c := by
      intro d
      rw [List.mem_filter]
      constructor
      · rintro ⟨hd, hne⟩
        exact ⟨hd, by rintro rfl; simp at hne⟩
      · rintro ⟨hd, hne⟩
        refine ⟨hd, ?_⟩
        simp only [bne_iff_ne]
        exact fun he => hne (h.num d hd c hc he)
    refine ⟨?_, ?_, ?_, hR, hdisj, ?_, ?_, ?_, ?_, ?_, ?_, ?_, ?_, ?_, ?_⟩
    · intro req hx
      have hx := (hu _ req (by rfl) (by rfl)).mp hx
      rw [ha req hx.2]
      exact h.und req hx.1
    · intro req h1 h2
      by_cases hne : req = c.req
      · subst hne; exact ⟨_, ha'⟩
      · rw [ha req hne]
        exact h.dec req h1 (fun hx => h2 ((hu _ req (by rfl) (by rfl)).mpr ⟨hx, hne⟩))
    · intro req h1
      rw [ha req (hnew req h1)]
      exact h.new req h1
    · intro a ha b hb
      exact h.num a ((hmem a).mp ha).1 b ((hmem b).mp hb).1
    · intro a ha b hb
      exact h.id a ((hmem a).mp ha).1 b ((hmem b).mp hb).1
    · intro a ha b hb
      exact h.req a ((hmem a).mp ha).1 b ((hmem b).mp hb).1
    · intro d hd
      exact h.idLt d ((hmem d).mp hd).1
    · intro d hd hdo
      have hd := ((hmem d).mp hd).1
      rw [ha _ (hopen d hd hdo)]
      exact h.opened d hd hdo
    · intro d hd hdo
      have hd := (hmem d).mp hd
      exact hpend d hd.1 hdo hd.2
    · intro r hr ch hch
      have hr := (hRm r).mp hr
      obtain ⟨d, hd, h1, h2, h3⟩ := h.runC r hr.1 ch hch
      refine ⟨d, (hmem d).mpr ⟨hd, ?_⟩, h1, h2, h3⟩
      rintro rfl
      exact hr.2 h2.symm
    · intro w hw
      have hw := (hWm w).mp hw
      obtain ⟨d, hd, h1, h2, h3⟩ := h.waitC w hw.1
      refine ⟨d, (hmem d).mpr ⟨hd, ?_⟩, h1, h2, h3⟩
      rintro rfl
      exact hw.2 h2.symm
    · intro req h1 h2
      have hne : req ≠ c.req := by
        rintro rfl
        rw [ha'] at h1
        exact absurd h1 (by simp)
      rw [ha req hne] at h1
      obtain ⟨d, hd, h3, h4⟩ := h.kept req h1 (fun hx => h2 (List.mem_append_left _ hx))
      refine ⟨d, (hmem d).mpr ⟨hd, ?_⟩, h3, h4⟩
      rintro rfl
      exact hne h3.symm
    · intro ch hch
      rcases List.mem_append.mp hch with hch | hch
      · exact h.noRel ch hch
      · simp at hch

/-- The next mask lets the request pass. -/
theorem aux_st_next {log : List StEvent} {s : Starts} (h : aux_st_Inv log s) {i : Nat} {r : StReq}
    (hr : s.running[i]? = some r) {k : Nat} (hp : r.phase = .masks k) :
    aux_st_Inv log { s with running := s.running.set i { r with phase := .masks (k + 1) } } := by
  have hrm := List.mem_of_getElem? hr
  have hm := aux_st_mem_set (r' := { r with phase := .masks (k + 1) }) hr h.runs
  have hu : ∀ req, undecided req { s with running := s.running.set i { r with phase := .masks (k + 1) } } ↔
      undecided req s := by
    intro req
    constructor
    · rintro (⟨x, hx, rfl⟩ | hw)
      · rcases (hm x).mp hx with rfl | ⟨hx, _⟩
        · exact .inl ⟨r, hrm, rfl⟩
        · exact .inl ⟨x, hx, rfl⟩
      · exact .inr hw
    · rintro (⟨x, hx, rfl⟩ | hw)
      · by_cases he : x.req = r.req
        · exact .inl ⟨_, (hm _).mpr (.inl rfl), he.symm⟩
        · exact .inl ⟨x, (hm x).mpr (.inr ⟨hx, he⟩), rfl⟩
      · exact .inr hw
  refine ⟨fun req hx => h.und req ((hu req).mp hx), fun req h1 h2 => h.dec req h1 (fun hx => h2 ((hu req).mpr hx)),
    h.new, ?_, ?_, h.num, h.id, h.req, h.idLt, h.opened, ?_, ?_, h.waitC, h.kept, h.noRel⟩
  · show ((s.running.set i { r with phase := .masks (k + 1) }).map (·.req)).Nodup
    rw [aux_st_set_reqs s.running i r { r with phase := .masks (k + 1) } hr rfl]
    exact h.runs
  · intro w hw x hx
    rcases (hm x).mp hx with rfl | ⟨hx, _⟩
    · exact h.disj w hw r hrm
    · exact h.disj w hw x hx
  · intro c hc ho
    rcases h.pending c hc ho with ⟨x, hx, h1, h2⟩ | hw
    · refine .inl ⟨x, (hm x).mpr (.inr ⟨hx, ?_⟩), h1, h2⟩
      intro he
      rw [aux_st_inj h.runs hx hrm he, hp] at h1
      exact absurd h1 (by simp)
    · exact .inr hw
  · intro x hx ch hch
    rcases (hm x).mp hx with rfl | ⟨hx, _⟩
    · exact absurd hch (by simp)
    · exact h.runC x hx ch hch

/-- The request is offered to the application. -/
theorem aux_st_offer {log : List StEvent} {s : Starts} (h : aux_st_Inv log s) {i : Nat} {r : StReq}
    (hr : s.running[i]? = some r) {k : Nat} (hp : r.phase = .masks k)
    (hnum : ∀ c ∈ s.table, c.num ≠ r.num) :
    aux_st_Inv log { s with table := s.table ++ [⟨s.created, r.num, r.req, false⟩],
                            created := s.created + 1,
                            running := s.running.set i { r with phase := .handler s.created } } := by
  have hrm := List.mem_of_getElem? hr
  have hm := aux_st_mem_set (r' := { r with phase := .handler s.created }) hr h.runs
  have hru : undecided r.req s := .inl ⟨r, hrm, rfl⟩
  have hreq : ∀ c ∈ s.table, c.req ≠ r.req := by
    intro c hc he
    cases ho : c.opened with
    | true =>
      have := h.opened c hc ho
      rw [he, (h.und _ hru).2] at this
      exact List.cons_ne_nil _ _ this.symm
    | false =>
      rcases h.pending c hc ho with ⟨x, hx, h1, h2⟩ | hw
      · rw [aux_st_inj h.runs hx hrm (h2.trans he), hp] at h1
        exact absurd h1 (by simp)
      · exact h.disj _ hw r hrm he
  have hid : ∀ c ∈ s.table, c.id ≠ s.created := fun c hc => Nat.ne_of_lt (h.idLt c hc)
  have hinj : ∀ {β : Type} (f : StChan → β) (n : StChan), (∀ c ∈ s.table, f c ≠ f n) →
      (∀ a ∈ s.table, ∀ b ∈ s.table, f a = f b → a = b) →
      ∀ a ∈ s.table ++ [n], ∀ b ∈ s.table ++ [n], f a = f b → a = b := by
    intro β f n hf hin a ha b hb he
    simp only [List.mem_append, List.mem_singleton] at ha hb
    rcases ha with ha | rfl <;> rcases hb with hb | rfl
    · exact hin a ha b hb he
    · exact absurd he (hf a ha)
    · exact absurd he.symm (hf b hb)
    · rfl
  have hu : ∀ (s' : Starts) req, s'.running = s.running.set i { r with phase := .handler s.created } →
      s'.waiting = s.waiting → (undecided req s' ↔ undecided req s) := by
    intro s' req h1 h2
    unfold undecided
    rw [h1, h2]
    constructor
    · rintro (⟨x, hx, rfl⟩ | hw)
      · rcases (hm x).mp hx with rfl | ⟨hx, _⟩
        · exact .inl ⟨r, hrm, rfl⟩
        · exact .inl ⟨x, hx, rfl⟩
      · exact .inr hw
    · rintro (⟨x, hx, rfl⟩ | hw)
      · by_cases he : x.req = r.req
        · exact .inl ⟨_, (hm _).mpr (.inl rfl), he.symm⟩
        · exact .inl ⟨x, (hm x).mpr (.inr ⟨hx, he⟩), rfl⟩
      · exact .inr hw
  refine ⟨fun req hx => h.und req ((hu _ req (by rfl) (by rfl)).mp hx),
    fun req h1 h2 => h.dec req h1 (fun hx => h2 ((hu _ req (by rfl) (by rfl)).mpr hx)),
    h.new, ?_, ?_, hinj (·.num) _ hnum h.num, hinj (·.id) _ hid h.id, hinj (·.req) _ hreq h.req, ?_, ?_, ?_, ?_,
    ?_, ?_, h.noRel⟩
  · show ((s.running.set i { r with phase := .handler s.created }).map (·.req)).Nodup
    rw [aux_st_set_reqs s.running i r { r with phase := .handler s.created } hr rfl]
    exact h.runs
  · intro w hw x hx
    rcases (hm x).mp hx with rfl | ⟨hx, _⟩
    · exact h.disj w hw r hrm
    · exact h.disj w hw x hx
  · intro c hc
    simp only [List.mem_append, List.mem_singleton] at hc
    rcases hc with hc | rfl
    · exact Nat.lt_succ_of_lt (h.idLt c hc)
    · exact Nat.lt_succ_self _
  · intro c hc ho
    simp only [List.mem_append, List.mem_singleton] at hc
    rcases hc with hc | rfl
    · exact h.opened c hc ho
    · exact absurd ho (by simp)
  · intro c hc ho
    simp only [List.mem_append, List.mem_singleton] at hc
    rcases hc with hc | rfl
    · rcases h.pending c hc ho with ⟨x, hx, h1, h2⟩ | hw
      · refine .inl ⟨x, (hm x).mpr (.inr ⟨hx, ?_⟩), h1, h2⟩
        exact h2 ▸ hreq c hc
      · exact .inr hw
    · exact .inl ⟨_, (hm _).mpr (.inl rfl), rfl, rfl⟩
  · intro x hx ch hch
    rcases (hm x).mp hx with rfl | ⟨hx, _⟩
    · simp only [StPhase.handler.injEq] at hch
      exact ⟨_, List.mem_append_right _ List.mem_cons_self, hch, rfl, rfl⟩
    · obtain ⟨c, hc, h1⟩ := h.runC x hx ch hch
      exact ⟨c, List.mem_append_left _ hc, h1⟩
  · intro w hw
    obtain ⟨c, hc, h1⟩ := h.waitC w hw
    exact ⟨c, List.mem_append_left _ hc, h1⟩
  · intro req h1 h2
    obtain ⟨c, hc, h3⟩ := h.kept req h1 h2
    exact ⟨c, List.mem_append_left _ hc, h3⟩

theorem aux_st_handle {log : List StEvent} {s : Starts} (h : aux_st_Inv log s) {i : Nat} {r : StReq}
    (hr : s.running[i]? = some r) {k : Nat} (hp : r.phase = .masks k) :
    aux_st_Inv (log ++ (s.handle i r).1) (s.handle i r).2 := by
  have hA : aux_st_Answers [.answered r.req false] r.req false := by
    refine ⟨fun x => ?_, by simp, by simp⟩
    by_cases he : x = r.req
    · simp [answersTo, he]
    · simp [answersTo, he, Ne.symm he]
  simp only [Starts.handle]
  split
  · exact aux_st_refuse h hr hp _ hA s.created (Nat.le_refl _)
  · split
    · exact aux_st_refuse h hr hp _ hA (s.created + 1) (Nat.le_succ _)
    · split
      · exact aux_st_refuse h hr hp _ hA (s.created + 1) (Nat.le_succ _)
      · rename_i hn _
        have hnum : ∀ c ∈ s.table, c.num ≠ r.num := by
          intro c hc he
          exact hn (List.any_eq_true.mpr ⟨c, hc, by simp [he]⟩)
        have h2 := aux_st_offer h hr hp hnum
        exact aux_st_quiet h2 [.offered r.req r.uri] ⟨by simp [answersTo], by simp, by simp⟩ s.profiles s.masks
          s.deferred

theorem aux_st_receive {log : List StEvent} {s : Starts} (h : aux_st_Inv log s) (num : Int) (uri : String) :
    aux_st_Inv (log ++ (s.step (.start num uri)).1) (s.step (.start num uri)).2 := by
  simp only [Starts.step]
  split
  · have ha : ∀ req, req ≠ s.received →
        answersTo req (log ++ [.received s.received num uri, .answered s.received false]) =
          answersTo req log := by
      intro req hne; rw [aux_st_answers_append]; simp [answersTo, Ne.symm hne]
    have ha' : answersTo s.received (log ++ [.received s.received num uri, .answered s.received false]) =
        [false] := by
      rw [aux_st_answers_append, h.new _ (Nat.le_refl _)]; simp [answersTo]
    have hu : ∀ req, undecided req { s with received := s.received + 1 } ↔ undecided req s := fun _ => Iff.rfl
    refine ⟨?_, ?_, ?_, h.runs, h.disj, h.num, h.id, h.req, h.idLt, ?_, h.pending, h.runC, h.waitC, ?_, ?_⟩
    · intro req hx
      have := h.und req ((hu req).mp hx)
      rw [ha req (Nat.ne_of_lt this.1)]
      exact ⟨Nat.lt_succ_of_lt this.1, this.2⟩
    · intro req h1 h2
      by_cases he : req = s.received
      · subst he; exact ⟨_, ha'⟩
      · rw [ha req he]
        have h1 : req < s.received + 1 := h1
        exact h.dec req (by omega) h2
    · intro req h1
      have h1 : s.received + 1 ≤ req := h1
      rw [ha req (by omega)]
      exact h.new req (by omega)
    · intro c hc ho
      have := h.opened c hc ho
      rw [ha]
      · exact this
      · intro he
        rw [he, h.new _ (Nat.le_refl _)] at this
        exact List.cons_ne_nil _ _ this.symm
    · intro req h1 h2
      have hne : req ≠ s.received := by
        rintro rfl
        rw [ha'] at h1
        exact absurd h1 (by simp)
      rw [ha req hne] at h1
      exact h.kept req h1 (fun hx => h2 (List.mem_append_left _ hx))
    · intro ch hch
      rcases List.mem_append.mp hch with hch | hch
      · exact h.noRel ch hch
      · simp at hch
  · have ha : ∀ req, answersTo req (log ++ [.received s.received num uri]) = answersTo req log := by
      intro req; rw [aux_st_answers_append]; simp [answersTo]
    have hlt : ∀ r ∈ s.running, r.req < s.received := fun r hr => (h.und _ (.inl ⟨r, hr, rfl⟩)).1
    have hu : ∀ (s' : Starts) req, s'.running = s.running ++ [⟨s.received, num, uri, .masks 0⟩] →
        s'.waiting = s.waiting → (undecided req s' ↔ undecided req s ∨ req = s.received) := by
      intro s' req h1 h2
      unfold undecided
      rw [h1, h2]
      constructor
      · rintro (⟨x, hx, rfl⟩ | hw)
        · simp only [List.mem_append, List.mem_singleton] at hx
          rcases hx with hx | rfl
          · exact .inl (.inl ⟨x, hx, rfl⟩)
          · exact .inr rfl
        · exact .inl (.inr hw)
      · rintro ((⟨x, hx, rfl⟩ | hw) | rfl)
        · exact .inl ⟨x, List.mem_append_left _ hx, rfl⟩
        · exact .inr hw
        · exact .inl ⟨_, List.mem_append_right _ List.mem_cons_self, rfl⟩
    refine ⟨?_, ?_, ?_, ?_, ?_, h.num, h.id, h.req, h.idLt, ?_, ?_, ?_, h.waitC, ?_, ?_⟩
    · intro req hx
      rw [ha]
      rcases (hu _ req (by rfl) (by rfl)).mp hx with hx | rfl
      · exact ⟨Nat.lt_succ_of_lt (h.und req hx).1, (h.und req hx).2⟩
      · exact ⟨Nat.lt_succ_self _, h.new _ (Nat.le_refl _)⟩
    · intro req h1 h2
      rw [ha]
      have h1 : req < s.received + 1 := h1
      have hne : req ≠ s.received := fun he => h2 ((hu _ req (by rfl) (by rfl)).mpr (.inr he))
      exact h.dec req (by omega) (fun hx => h2 ((hu _ req (by rfl) (by rfl)).mpr (.inl hx)))
    · intro req h1
      rw [ha]
      exact h.new req (Nat.le_of_succ_le h1)
    · simp only [List.map_append, List.map_cons, List.map_nil]
      refine List.nodup_append.mpr ⟨h.runs, by simp, ?_⟩
      intro a ha b hb
      simp only [List.mem_singleton] at hb
      subst hb
      obtain ⟨r, hr, rfl⟩ := List.mem_map.mp ha
      exact Nat.ne_of_lt (hlt r hr)
    · intro w hw x hx
      simp only [List.mem_append, List.mem_singleton] at hx
      rcases hx with hx | rfl
      · exact h.disj w hw x hx
      · exact Nat.ne_of_lt (h.und _ (.inr ⟨w, hw, rfl⟩)).1
    · intro c hc ho; rw [ha]; exact h.opened c hc ho
    · intro c hc ho
      rcases h.pending c hc ho with ⟨x, hx, h1⟩ | hw
      · exact .inl ⟨x, List.mem_append_left _ hx, h1⟩
      · exact .inr hw
    · intro x hx ch hch
      simp only [List.mem_append, List.mem_singleton] at hx
      rcases hx with hx | rfl
      · exact h.runC x hx ch hch
      · exact absurd hch (by simp)
    · intro req h1 h2
      rw [ha] at h1
      exact h.kept req h1 (fun hx => h2 (List.mem_append_left _ hx))
    · intro ch hch
      rcases List.mem_append.mp hch with hch | hch
      · exact h.noRel ch hch
      · simp at hch

/-- The start handler returns after deferring the answer. -/
theorem aux_st_wait {log : List StEvent} {s : Starts} (h : aux_st_Inv log s) {i : Nat} {r : StReq}
    (hr : s.running[i]? = some r) {ch : Nat} (hp : r.phase = .handler ch) :
    aux_st_Inv log { s with running := s.running.eraseIdx i, waiting := s.waiting ++ [(ch, r.req)] } := by
  have hrm := List.mem_of_getElem? hr
  have hm := aux_st_mem_erase hr h.runs
  have hu : ∀ (s' : Starts) req, s'.running = s.running.eraseIdx i → s'.waiting = s.waiting ++ [(ch, r.req)] →
      (undecided req s' ↔ undecided req s) := by
    intro s' req h1 h2
    unfold undecided
    rw [h1, h2]
    constructor
    · rintro (⟨x, hx, rfl⟩ | ⟨w, hw, rfl⟩)
      · exact .inl ⟨x, ((hm x).mp hx).1, rfl⟩
      · simp only [List.mem_append, List.mem_singleton] at hw
        rcases hw with hw | rfl
        · exact .inr ⟨w, hw, rfl⟩
        · exact .inl ⟨r, hrm, rfl⟩
    · rintro (⟨x, hx, rfl⟩ | ⟨w, hw, rfl⟩)
      · by_cases he : x.req = r.req
        · exact .inr ⟨_, List.mem_append_right _ List.mem_cons_self, he.symm⟩
        · exact .inl ⟨x, (hm x).mpr ⟨hx, he⟩, rfl⟩
      · exact .inr ⟨w, List.mem_append_left _ hw, rfl⟩
  refine ⟨fun req hx => h.und req ((hu _ req (by rfl) (by rfl)).mp hx),
    fun req h1 h2 => h.dec req h1 (fun hx => h2 ((hu _ req (by rfl) (by rfl)).mpr hx)),
    h.new, h.runs.sublist ((List.eraseIdx_sublist _ _).map _), ?_, h.num, h.id, h.req, h.idLt, h.opened, ?_, ?_,
    ?_, h.kept, h.noRel⟩
  · intro w hw x hx
    have hx := (hm x).mp hx
    simp only [List.mem_append, List.mem_singleton] at hw
    rcases hw with hw | rfl
    · exact h.disj w hw x hx.1
    · exact Ne.symm hx.2
  · intro c hc ho
    rcases h.pending c hc ho with ⟨x, hx, h1, h2⟩ | hw
    · by_cases he : x.req = r.req
      · refine .inr (List.mem_append_right _ ?_)
        rw [aux_st_inj h.runs hx hrm he, hp, StPhase.handler.injEq] at h1
        rw [h1, ← he, h2]
        exact List.mem_cons_self
      · exact .inl ⟨x, (hm x).mpr ⟨hx, he⟩, h1, h2⟩
    · exact .inr (List.mem_append_left _ hw)
  · intro x hx c hc
    exact h.runC x ((hm x).mp hx).1 c hc
  · intro w hw
    simp only [List.mem_append, List.mem_singleton] at hw
    rcases hw with hw | rfl
    · exact h.waitC w hw
    · exact h.runC r hrm ch hp

/-- An accepted channel is closed. -/
theorem aux_st_close {log : List StEvent} {s : Starts} (h : aux_st_Inv log s) {c : StChan} (hc : c ∈ s.table)
    (ho : c.opened = true) : aux_st_Inv (log ++ [.closed c.req]) (s.remove c.num) := by
  have ha : ∀ req, answersTo req (log ++ [.closed c.req]) = answersTo req log := by
    intro req; rw [aux_st_answers_append]; simp [answersTo]
  have hmem : ∀ d, d ∈ (s.remove c.num).table ↔ d ∈ s.table ∧ d ≠ c := by
    intro d
    rw [Starts.remove, List.mem_filter]
    constructor
    · rintro ⟨hd, hne⟩
      exact ⟨hd, by rintro rfl; simp at hne⟩
    · rintro ⟨hd, hne⟩
      refine ⟨hd, ?_⟩
      simp only [bne_iff_ne]
      exact fun he => hne (h.num d hd c hc he)
  refine ⟨?_, ?_, ?_, h.runs, h.disj, ?_, ?_, ?_, ?_, ?_, ?_, ?_, ?_, ?_, ?_⟩
  · intro req hx; rw [ha]; exact h.und req hx
  · intro req h1 h2; rw [ha]; exact h.dec req h1 h2
  · intro req h1; rw [ha]; exact h.new req h1
  · intro a ha b hb
    exact h.num a ((hmem a).mp ha).1 b ((hmem b).mp hb).1
  · intro a ha b hb
    exact h.id a ((hmem a).mp ha).1 b ((hmem b).mp hb).1
  · intro a ha b hb
    exact h.req a ((hmem a).mp ha).1 b ((hmem b).mp hb).1
  · intro d hd
    exact h.idLt d ((hmem d).mp hd).1
  · intro d hd hdo; rw [ha]; exact h.opened d ((hmem d).mp hd).1 hdo
  · intro d hd hdo
    exact h.pending d ((hmem d).mp hd).1 hdo
  · intro r hr ch hch
    obtain ⟨d, hd, h1, h2, h3⟩ := h.runC r hr ch hch
    refine ⟨d, (hmem d).mpr ⟨hd, ?_⟩, h1, h2, h3⟩
    rintro rfl
    rw [ho] at h3
    contradiction
  · intro w hw
    obtain ⟨d, hd, h1, h2, h3⟩ := h.waitC w hw
    refine ⟨d, (hmem d).mpr ⟨hd, ?_⟩, h1, h2, h3⟩
    rintro rfl
    rw [ho] at h3
    contradiction
  · intro req h1 h2
    rw [ha] at h1
    obtain ⟨d, hd, h3, h4⟩ := h.kept req h1 (fun hx => h2 (List.mem_append_left _ hx))
    refine ⟨d, (hmem d).mpr ⟨hd, ?_⟩, h3, h4⟩
    rintro rfl
    exact h2 (List.mem_append_right _ (by simp [h3]))
  · intro ch hch
    rcases List.mem_append.mp hch with hch | hch
    · exact h.noRel ch hch
    · simp at hch

theorem aux_st_step {log : List StEvent} {s : Starts} (h : aux_st_Inv log s) (op : StOp)
    (hd : Disciplined s [op]) : aux_st_Inv (log ++ (s.step op).1) (s.step op).2 := by
  have hd := hd.1
  cases op with
  | register uri => exact aux_st_quiet h [.registered uri] ⟨by simp [answersTo], by simp, by simp⟩ _ s.masks s.deferred
  | unregister uri => exact aux_st_quiet h [.unregistered uri] ⟨by simp [answersTo], by simp, by simp⟩ _ s.masks s.deferred
  | setMask => exact aux_st_quiet h [.masked] ⟨by simp [answersTo], by simp, by simp⟩ s.profiles _ s.deferred
  | start num uri => exact aux_st_receive h num uri
  | proceed i filters skip =>
    simp only [Starts.step]
    cases hr : s.running[i]? with
    | none => simpa using h
    | some r =>
      simp only
      cases hp : r.phase with
      | handler ch => simpa using h
      | masks k =>
        simp only
        split
        · split
          · rename_i hf
            have hs : skip = false := by
              cases skip with
              | false => rfl
              | true => exact absurd ⟨hf, rfl⟩ hd
            subst hs
            refine aux_st_refuse h hr hp _ ⟨fun x => ?_, by simp, by simp⟩ s.created (Nat.le_refl _)
            by_cases he : x = r.req
            · simp [answersTo, he]
            · simp [answersTo, he, Ne.symm he]
          · exact aux_st_quiet (aux_st_next h hr hp) [.consulted r.req k false]
              ⟨by simp [answersTo], by simp, by simp⟩ s.profiles s.masks s.deferred
        · exact aux_st_handle h hr hp
  | defer chan =>
    simp only [Starts.step]
    obtain ⟨r, hr, hp⟩ := hd
    obtain ⟨c, hc, h1, _⟩ := h.runC r hr chan hp
    rw [← h1, aux_st_live_of hc h.id]
    exact aux_st_quiet h [] ⟨by simp [answersTo], by simp, by simp⟩ s.profiles s.masks (c.id :: s.deferred)
  | handlerReturns i status =>
    simp only [Starts.step]
    cases hr : s.running[i]? with
    | none => simpa using h
    | some r =>
      simp only
      cases hp : r.phase with
      | masks k => simpa using h
      | handler ch =>
        simp only
        obtain ⟨c, hc, h1, h2, h3⟩ := h.runC r (List.mem_of_getElem? hr) ch hp
        subst h1
        rw [aux_st_live_of hc h.id]
        simp only
        split
        · rw [List.append_nil]
          exact aux_st_wait h hr hp
        · refine aux_st_answer h hc h3 (s.running.eraseIdx i) s.waiting
            (h.runs.sublist ((List.eraseIdx_sublist _ _).map _)) ?_ ?_ status
          · intro x
            rw [h2]
            exact aux_st_mem_erase hr h.runs x
          · intro w
            rw [h2]
            exact ⟨fun hw => ⟨hw, h.disj w hw r (List.mem_of_getElem? hr)⟩, fun hw => hw.1⟩
  | notify chan action =>
    simp only [Starts.step]
    obtain ⟨q, hq⟩ := hd
    obtain ⟨c, hc, h1, h2, h3⟩ := h.waitC _ hq
    simp only at h1 h2
    subst h1
    rw [aux_st_live_of hc h.id]
    simp only
    refine aux_st_answer h hc h3 s.running (s.waiting.filter (fun w => w.1 != c.id)) h.runs ?_ ?_ action
    · intro x
      refine ⟨fun hx => ⟨hx, ?_⟩, fun hx => hx.1⟩
      rw [h2]
      exact Ne.symm (h.disj _ hq x hx)
    · intro w
      rw [List.mem_filter]
      constructor
      · rintro ⟨hw, hne⟩
        refine ⟨hw, ?_⟩
        intro he
        obtain ⟨d, hd, h4, h5, _⟩ := h.waitC w hw
        have := h.req d hd c hc (h5.trans he)
        subst this
        simp [h4] at hne
      · rintro ⟨hw, hne⟩
        refine ⟨hw, ?_⟩
        simp only [bne_iff_ne]
        intro he
        obtain ⟨d, hd, h4, h5, _⟩ := h.waitC w hw
        have := h.id d hd c hc (h4.trans he)
        subst this
        exact hne h5.symm
  | close chan =>
    simp only [Starts.step]
    cases hl : s.live chan with
    | none => simpa using h
    | some c => exact aux_st_close h (aux_st_live hl).1 (hd c hl)

theorem aux_st_run (ops : List StOp) : ∀ (log : List StEvent) (s : Starts), aux_st_Inv log s →
    Disciplined s ops → aux_st_Inv (log ++ (s.run ops).1) (s.run ops).2 := by
  induction ops with
  | nil => intro log s h _; simpa [Starts.run] using h
  | cons op ops ih =>
    intro log s h hd
    simp only [Starts.run]
    rw [← List.append_assoc]
    exact ih _ _ (aux_st_step h op ⟨hd.1, trivial⟩) hd.2

theorem aux_st_init : aux_st_Inv [] Starts.init := by
  refine ⟨?_, ?_, ?_, ?_, ?_, ?_, ?_, ?_, ?_, ?_, ?_, ?_, ?_, ?_, ?_⟩ <;>
    simp [Starts.init, undecided, answersTo]

/-- **C28 (partial)**: if the application answers each deferred request once and after its start handler
returned, nobody closes a channel before it is accepted and no mask takes over the answer, then every
request that nobody has still to decide got exactly one answer and the others none; the channel of a request
exists after a positive answer until it is closed, and does not after a negative one; and no channel object
is used after it was dropped.
Missing: the application answering a deferred request while its start handler is still running, and peers
that close a channel before they are told it is open. -/
theorem C28_one_answer_partial (ops : List StOp) (hd : Disciplined Starts.init ops) :
    let r := Starts.init.run ops
    (∀ req, req < r.2.received → (undecided req r.2 → answersTo req r.1 = []) ∧
      (¬ undecided req r.2 → (answersTo req r.1).length = 1)) ∧
    (∀ req, answersTo req r.1 = [true] → .closed req ∉ r.1 → ∃ c ∈ r.2.table, c.req = req) ∧
    (∀ req, answersTo req r.1 = [false] → ∀ c ∈ r.2.table, c.req ≠ req) ∧
    (∀ chan, .released chan ∉ r.1) := by
  have h := aux_st_run ops [] Starts.init aux_st_init hd
  simp only [List.nil_append] at h
  refine ⟨?_, ?_, ?_, h.noRel⟩
  · intro req hlt
    refine ⟨fun hu => (h.und req hu).2, fun hu => ?_⟩
    obtain ⟨b, hb⟩ := h.dec req hlt hu
    rw [hb]; rfl
  · intro req h1 h2
    obtain ⟨c, hc, h3, _⟩ := h.kept req h1 h2
    exact ⟨c, hc, h3⟩
  · rintro req h1 c hc rfl
    cases ho : c.opened with
    | true =>
      rw [h.opened c hc ho] at h1
      simp at h1
    | false =>
      have hu : undecided c.req (Starts.init.run ops).2 := by
        rcases h.pending c hc ho with ⟨r, hr, _, h2⟩ | hw
        · exact .inl ⟨r, hr, h2⟩
        · exact .inr ⟨_, hw, rfl⟩
      rw [(h.und _ hu).2] at h1
      simp at h1

def aux_st_disciplined (s : Starts) : List StOp → Bool
  | [] => true
  | op :: ops =>
    (match op with
      | .notify chan _ => s.waiting.any (fun w => w.1 == chan)
      | .close chan => match s.live chan with
        | some c => c.opened
        | none => true
      | .defer chan => s.running.any (fun r => r.phase == .handler chan)
      | .proceed _ filters skip => !(filters && skip)
      | _ => true) && aux_st_disciplined (s.step op).2 ops

theorem aux_st_disciplined_spec (ops : List StOp) : ∀ s, aux_st_disciplined s ops = true →
    Disciplined s ops := by
  induction ops with
  | nil => intro s _; trivial
  | cons op ops ih =>
    intro s h
    simp only [aux_st_disciplined, Bool.and_eq_true] at h
    refine ⟨?_, ih _ h.2⟩
    have h := h.1
    cases op with
    | notify chan action =>
      simp only [List.any_eq_true, beq_iff_eq] at h ⊢
      obtain ⟨w, hw, rfl⟩ := h
      exact ⟨w.2, hw⟩
    | close chan =>
      simp only at h ⊢
      intro c hc
      simpa [hc] using h
    | defer chan =>
      simp only [List.any_eq_true, beq_iff_eq] at h
      exact h
    | proceed i f sk =>
      simp only at h ⊢
      rintro ⟨rfl, rfl⟩
      simp at h
    | _ => trivial

/-- A mask and a profile; a request accepted at once, one for a number in use, one filtered by the mask, one
for an unknown profile, and one accepted later. -/
example :
    let ops : List StOp := [.register "a", .setMask, .start 3 "a", .proceed 0 false false, .proceed 0 false false,
      .start 5 "a", .handlerReturns 0 true, .start 3 "a", .proceed 0 true false, .start 7 "b",
      .proceed 0 false false, .proceed 0 false false, .start 9 "a", .proceed 0 false false,
      .proceed 0 false false, .defer 1, .handlerReturns 0 false, .notify 1 true, .close 0]
    Disciplined Starts.init ops ∧ (List.range 5).map (fun q => answersTo q (Starts.init.run ops).1) =
      [[true], [false], [false], [false], [true]] :=
  ⟨aux_st_disciplined_spec _ _ (by decide +kernel), by decide +kernel⟩

/-- **C28** (used numbers): after any history, a request for the number of a channel that exists, or for
channel 0, is refused at once, and changes nothing. -/
theorem C28_used_number_refused (ops : List StOp) (num : Int) (uri : String)
    (hu : num = 0 ∨ (0 < num ∧ ∃ c ∈ (Starts.init.run ops).2.table, c.num = num)) :
    let s := (Starts.init.run ops).2
    (s.step (.start num uri)).1 = [.received s.received num uri, .answered s.received false] ∧
    (s.step (.start num uri)).2.table = s.table ∧ (s.step (.start num uri)).2.running = s.running := by
  intro s
  have he : s.exists num = true := by
    unfold Starts.exists
    rcases hu with rfl | ⟨hp, c, hc, rfl⟩
    · rfl
    · rw [if_neg (by omega), if_neg (by omega)]
      exact List.any_eq_true.mpr ⟨c, hc, by simp⟩
  simp [Starts.step, he]

example : ∃ c ∈ (Starts.init.run [.register "a", .start 3 "a", .proceed 0 false false,
    .handlerReturns 0 true]).2.table, c.num = 3 := by decide +kernel

theorem aux_st_nums (ops : List StOp) : ∀ s : Starts, (s.table.map (·.num)).Nodup →
    ((s.run ops).2.table.map (·.num)).Nodup := by
  induction ops with
  | nil => intro s h; exact h
  | cons op ops ih =>
    intro s h
    simp only [Starts.run]
    apply ih
    have hfil : ∀ (t : List StChan) (n : Int), (t.map (·.num)).Nodup →
        ((t.filter (fun c => c.num != n)).map (·.num)).Nodup :=
      fun t n ht => ht.sublist (List.filter_sublist.map _)
    have hans : ∀ (s : Starts) (c : StChan) (b : Bool), (s.table.map (·.num)).Nodup →
        ((s.answer c b).2.table.map (·.num)).Nodup := by
      intro s c b h
      cases b with
      | false => exact hfil _ _ h
      | true =>
        simp only [Starts.answer, if_true, List.map_map]
        have : ((fun x : StChan => x.num) ∘ fun d => if (d.id == c.id) = true then { d with opened := true } else d) =
            (fun x : StChan => x.num) := by
          funext d
          simp only [Function.comp]
          split <;> rfl
        rw [this]; exact h
    cases op with
    | register uri => exact h
    | unregister uri => exact h
    | setMask => exact h
    | start num uri => simp only [Starts.step]; split <;> exact h
    | proceed i f sk =>
      simp only [Starts.step]
      split
      · exact h
      · split
        · exact h
        · split
          · split <;> exact h
          · simp only [Starts.handle]
            split
            · exact h
            · split
              · exact h
              · split
                · exact h
                · rename_i hn _
                  simp only [List.map_append, List.map_cons, List.map_nil]
                  refine List.nodup_append.mpr ⟨h, by simp, ?_⟩
                  intro a ha b hb
                  simp only [List.mem_singleton] at hb
                  subst hb
                  obtain ⟨c, hc, rfl⟩ := List.mem_map.mp ha
                  intro he
                  exact hn (List.any_eq_true.mpr ⟨c, hc, by simp [he]⟩)
    | defer chan => simp only [Starts.step]; split <;> exact h
    | handlerReturns i st =>
      simp only [Starts.step]
      split
      · exact h
      · split
        · exact h
        · split
          · exact h
          · split
            · exact h
            · exact hans _ _ _ h
    | notify chan a =>
      simp only [Starts.step]
      split
      · exact h
      · exact hans _ _ _ h
    | close chan =>
      simp only [Starts.step]
      split
      · exact h
      · exact hfil _ _ h

/-- **C28** (one channel per number): whatever the peer and the application do, no two channels of the
connection have the same number. -/
theorem C28_one_channel_per_number (ops : List StOp) :
    ((Starts.init.run ops).2.table.map (·.num)).Nodup :=
  aux_st_nums ops Starts.init (by simp [Starts.init])

/-- **C28 (fault)**: the application defers the answer and another of its threads refuses the channel before
the start handler returns. The channel is dropped, and then used when the handler returns. -/
theorem C28_deferred_dropped :
    (Starts.init.run [.register "a", .start 3 "a", .proceed 0 false false, .defer 0, .notify 0 false,
      .handlerReturns 0 true]).1 =
    [.registered "a", .received 0 3 "a", .offered 0 "a", .answered 0 false, .released 0] := by decide +kernel

/-- **C28 (fault)**: a close request of the peer is honoured for a channel whose start was deferred. The
channel is dropped; the answer of the application uses it, and the start request gets no answer. -/
theorem C28_closed_before_open :
    (Starts.init.run [.register "a", .start 3 "a", .proceed 0 false false, .defer 0, .handlerReturns 0 true,
      .close 0, .notify 0 true]).1 =
    [.registered "a", .received 0 3 "a", .offered 0 "a", .closed 0, .released 0] := by decide +kernel

theorem C28_statement_false : ¬ C28_statement := by
  intro h
  have h2 := (h [.register "a", .start 3 "a", .proceed 0 false false, .defer 0, .notify 0 false,
      .handlerReturns 0 true]).2.2.2 0
  rw [C28_deferred_dropped] at h2
  simp at h2

theorem aux_st_found {log : List StEvent} {s : Starts} (h : aux_st_Inv log s) {c : StChan} (hc : c ∈ s.table) :
    s.live c.id = some c := by
  unfold Starts.live
  cases hf : s.table.find? (fun x => x.id == c.id) with
  | none =>
    have := List.find?_eq_none.mp hf c hc
    simp at this
  | some d =>
    have h1 := List.find?_some hf
    have h2 := List.mem_of_find?_eq_some hf
    rw [h.id d h2 c hc (by simpa using h1)]

theorem aux_st_deferred_step {log : List StEvent} {s : Starts} (h : aux_st_Inv log s) (op : StOp)
    (hd : Disciplined s [op]) (chan : Nat) :
    chan ∈ (s.step op).2.deferred ↔ chan ∈ s.deferred ∨ op = .defer chan := by
  have hans : ∀ (s : Starts) c b, (s.answer c b).2.deferred = s.deferred := by
    intro s c b; cases b <;> rfl
  cases op with
  | defer ch =>
    obtain ⟨r, hr, hp⟩ := hd.1
    obtain ⟨c, hc, rfl, _⟩ := h.runC r hr ch hp
    simp only [Starts.step, aux_st_found h hc, List.mem_cons, StOp.defer.injEq]
    constructor
    · rintro (rfl | h1)
      · exact .inr rfl
      · exact .inl h1
    · rintro (h1 | h1)
      · exact .inr h1
      · exact .inl h1.symm
  | register uri => simp [Starts.step]
  | unregister uri => simp [Starts.step]
  | setMask => simp [Starts.step]
  | start num uri => simp only [Starts.step]; split <;> simp
  | close ch => simp only [Starts.step]; split <;> simp [Starts.remove]
  | notify ch a => simp only [Starts.step]; split <;> simp [hans]
  | handlerReturns i st =>
    simp only [Starts.step]
    split
    · simp
    · split
      · simp
      · split
        · simp
        · split <;> simp [hans]
  | proceed i f sk =>
    simp only [Starts.step]
    split
    · simp
    · split
      · simp
      · split
        · split <;> simp
        · simp only [Starts.handle]
          repeat' split
          all_goals simp

theorem aux_st_deferred (ops : List StOp) : ∀ (log : List StEvent) (s : Starts), aux_st_Inv log s →
    Disciplined s ops → ∀ chan, chan ∈ (s.run ops).2.deferred ↔ chan ∈ s.deferred ∨ .defer chan ∈ ops := by
  induction ops with
  | nil => intro log s _ _ chan; simp [Starts.run]
  | cons op ops ih =>
    intro log s h hd chan
    simp only [Starts.run]
    rw [ih _ _ (aux_st_step h op ⟨hd.1, trivial⟩) hd.2, aux_st_deferred_step h op ⟨hd.1, trivial⟩]
    simp only [List.mem_cons]
    constructor
    · rintro ((h1 | h1) | h1)
      · exact .inl h1
      · exact .inr (.inl h1.symm)
      · exact .inr (.inr h1)
    · rintro (h1 | h1 | h1)
      · exact .inl (.inl h1)
      · exact .inl (.inr h1.symm)
      · exact .inr h1

/-- **C28 (partial)** (the application decides): under the same conditions, a request offered to the
application is answered with what its start handler returns, unless the handler deferred the answer; a
deferred request is not answered then, and is answered with what the application says later.
Missing: as in `C28_one_answer_partial`. -/
theorem C28_application_decides_partial (ops : List StOp) (hd : Disciplined Starts.init ops) :
    let s := (Starts.init.run ops).2
    (∀ i r chan, s.running[i]? = some r → r.phase = .handler chan → ∀ status,
      (s.step (.handlerReturns i status)).1 = if .defer chan ∈ ops then [] else [.answered r.req status]) ∧
    (∀ chan req, (chan, req) ∈ s.waiting → ∀ action,
      (s.step (.notify chan action)).1 = [.answered req action]) := by
  have h := aux_st_run ops [] Starts.init aux_st_init hd
  have hdef := aux_st_deferred ops [] Starts.init aux_st_init hd
  simp only [List.nil_append] at h
  generalize (Starts.init.run ops).1 = log at *
  generalize (Starts.init.run ops).2 = s at *
  have hans : ∀ (s : Starts) c b, (s.answer c b).1 = [.answered c.req b] := by
    intro s c b; cases b <;> rfl
  refine ⟨?_, ?_⟩
  · intro i r chan hr hp status
    obtain ⟨c, hc, rfl, hq, _⟩ := h.runC r (List.mem_of_getElem? hr) chan hp
    simp only [Starts.step, hr, hp, aux_st_found h hc]
    have hx := hdef c.id
    simp only [Starts.init, List.not_mem_nil, false_or] at hx
    by_cases hm : StOp.defer c.id ∈ ops
    · rw [if_pos hm, if_pos (by simpa using hx.mpr hm)]
    · rw [if_neg hm, if_neg (by simpa using fun h1 => hm (hx.mp h1)), hans, hq]
  · intro chan req hw action
    obtain ⟨c, hc, h1, h2, _⟩ := h.waitC _ hw
    simp only at h1 h2
    subst h1 h2
    simp only [Starts.step, aux_st_found h hc]
    exact hans _ _ _

/-- Two requests offered, the first one deferred. -/
example :
    let ops : List StOp := [.register "a", .start 3 "a", .proceed 0 false false, .start 5 "a",
      .proceed 1 false false, .defer 0]
    let s := (Starts.init.run ops).2
    Disciplined Starts.init ops ∧ s.running.map (·.phase) = [.handler 0, .handler 1] ∧
    (s.step (.handlerReturns 0 true)).2.waiting = [(0, 0)] :=
  ⟨aux_st_disciplined_spec _ _ (by decide +kernel), by decide +kernel, by decide +kernel⟩

/-! ## C44 -/

theorem aux_st_cons_append (req : Nat) (a b : List StEvent) :
    consultations req (a ++ b) = consultations req a ++ consultations req b := by simp [consultations]

theorem aux_st_masks_append (a b : List StEvent) : masksInstalled (a ++ b) = masksInstalled a + masksInstalled b := by
  simp [masksInstalled]

theorem aux_st_reg_append (u : String) (a b : List StEvent) : ∀ x,
    isRegistered u (a ++ b) x = isRegistered u b (isRegistered u a x) := by
  induction a with
  | nil => intro x; rfl
  | cons e a ih => intro x; cases e <;> simp [isRegistered, ih]

def aux_st_falses (k : Nat) : List (Nat × Bool) := (List.range k).map (·, false)

structure aux_st_Mask (log : List StEvent) (s : Starts) : Prop where
  m : masksInstalled log = s.masks
  p : ∀ u, isRegistered u log false = s.profiles.contains u
  runs : (s.running.map (·.req)).Nodup
  lt : ∀ r ∈ s.running, r.req < s.received
  ph : ∀ r ∈ s.running, ∀ k, r.phase = .masks k → consultations r.req log = aux_st_falses k ∧ k ≤ s.masks ∧
    ∀ u, .offered r.req u ∉ log
  recd : ∀ r ∈ s.running, .received r.req r.num r.uri ∈ log
  fresh : ∀ req, s.received ≤ req → consultations req log = [] ∧ ∀ u, .offered req u ∉ log
  all : ∀ req, ∃ k, consultations req log = aux_st_falses k ∨
    (consultations req log = aux_st_falses k ++ [(k, true)] ∧ (∀ r ∈ s.running, r.req ≠ req) ∧
      ∀ u, .offered req u ∉ log)

/-- Steps that consult no mask, offer nothing and take no new request. -/
theorem aux_st_mask_quiet {log : List StEvent} {s s' : Starts} (h : aux_st_Mask log s) (ev : List StEvent)
    (hm : masksInstalled log + masksInstalled ev = s'.masks) (hmle : s.masks ≤ s'.masks)
    (hp : ∀ u, isRegistered u ev (s.profiles.contains u) = s'.profiles.contains u)
    (hr : (s'.running.map (·.req)).Nodup) (hsub : ∀ r ∈ s'.running, r ∈ s.running)
    (hrec : s.received = s'.received) (hc : ∀ q, consultations q ev = []) (ho : ∀ q u, .offered q u ∉ ev) :
    aux_st_Mask (log ++ ev) s' := by
  have hcc : ∀ q, consultations q (log ++ ev) = consultations q log := by
    intro q; rw [aux_st_cons_append, hc, List.append_nil]
  have hoo : ∀ q u, .offered q u ∉ log → .offered q u ∉ log ++ ev := by
    intro q u hn hx
    rcases List.mem_append.mp hx with hx | hx
    · exact hn hx
    · exact ho q u hx
  refine ⟨by rw [aux_st_masks_append]; exact hm, ?_, hr, ?_, ?_, ?_, ?_, ?_⟩
  · intro u; rw [aux_st_reg_append, h.p, hp]
  · intro r hr; rw [← hrec]; exact h.lt r (hsub r hr)
  · intro r hr k hk
    obtain ⟨h1, h2, h3⟩ := h.ph r (hsub r hr) k hk
    exact ⟨(hcc _).trans h1, Nat.le_trans h2 hmle, fun u => hoo _ u (h3 u)⟩
  · intro r hr; exact List.mem_append_left _ (h.recd r (hsub r hr))
  · intro q hq
    rw [← hrec] at hq
    exact ⟨(hcc q).trans (h.fresh q hq).1, fun u => hoo q u ((h.fresh q hq).2 u)⟩
  · intro q
    obtain ⟨k, hk | ⟨h1, h2, h3⟩⟩ := h.all q
    · exact ⟨k, .inl ((hcc q).trans hk)⟩
    · exact ⟨k, .inr ⟨(hcc q).trans h1, fun r hr => h2 r (hsub r hr), fun u => hoo q u (h3 u)⟩⟩

theorem aux_st_mask_answer {log : List StEvent} {s0 s : Starts} (h : aux_st_Mask log s0) (c : StChan) (b : Bool)
    (h1 : s.masks = s0.masks) (h2 : s.profiles = s0.profiles) (hr : (s.running.map (·.req)).Nodup)
    (hsub : ∀ r ∈ s.running, r ∈ s0.running) (h3 : s0.received = s.received) :
    aux_st_Mask (log ++ (s.answer c b).1) (s.answer c b).2 := by
  cases b
  · refine aux_st_mask_quiet h _ ?_ ?_ ?_ hr hsub h3 ?_ ?_
    · simp [Starts.answer, Starts.remove, masksInstalled, ← h.m, h1]
    · simp [Starts.answer, Starts.remove, h1]
    · simp [Starts.answer, Starts.remove, isRegistered, h2]
    · simp [Starts.answer, consultations]
    · simp [Starts.answer]
  · refine aux_st_mask_quiet h _ ?_ ?_ ?_ hr hsub h3 ?_ ?_
    · simp [Starts.answer, masksInstalled, ← h.m, h1]
    · simp [Starts.answer, h1]
    · simp [Starts.answer, isRegistered, h2]
    · simp [Starts.answer, consultations]
    · simp [Starts.answer]

theorem aux_st_falses_succ (k : Nat) : aux_st_falses (k + 1) = aux_st_falses k ++ [(k, false)] := by
  simp [aux_st_falses, List.range_succ]

theorem aux_st_mask_step {log : List StEvent} {s : Starts} (h : aux_st_Mask log s) (op : StOp) :
    aux_st_Mask (log ++ (s.step op).1) (s.step op).2 := by
  have hers : ∀ i, ((s.running.eraseIdx i).map (·.req)).Nodup :=
    fun i => h.runs.sublist ((List.eraseIdx_sublist _ _).map _)
  have hsub : ∀ i, ∀ r ∈ s.running.eraseIdx i, r ∈ s.running := fun i r hr => List.mem_of_mem_eraseIdx hr
  cases op with
  | register uri =>
    refine aux_st_mask_quiet h [.registered uri] ?_ (Nat.le_refl _) ?_ h.runs (fun _ hr => hr) rfl ?_ ?_
    · simp [masksInstalled, Starts.step]; simp [← h.m, masksInstalled]
    · intro u
      simp only [isRegistered, Starts.step]
      split
      · rename_i hc
        by_cases he : uri = u
        · subst he; simp_all
        · simp [he]
      · by_cases he : uri = u
        · subst he; simp
        · simp [he, Ne.symm he]
    · simp [consultations]
    · simp
  | unregister uri =>
    refine aux_st_mask_quiet h [.unregistered uri] ?_ (Nat.le_refl _) ?_ h.runs (fun _ hr => hr) rfl ?_ ?_
    · simp [masksInstalled, Starts.step]; simp [← h.m, masksInstalled]
    · intro u
      simp only [isRegistered, Starts.step]
      rw [Bool.eq_iff_iff]
      simp only [Bool.and_eq_true, List.contains_iff_mem, List.mem_filter, bne_iff_ne]
      exact ⟨fun hx => ⟨hx.1, Ne.symm hx.2⟩, fun hx => ⟨hx.1, Ne.symm hx.2⟩⟩
    · simp [consultations]
    · simp
  | setMask =>
    refine aux_st_mask_quiet h [.masked] ?_ (Nat.le_succ _) ?_ h.runs (fun _ hr => hr) rfl ?_ ?_
    · simp [masksInstalled, Starts.step]; simp [← h.m, masksInstalled]
    · simp [isRegistered, Starts.step]
    · simp [consultations]
    · simp
  | start num uri =>
    have hcc : ∀ (ev : List StEvent) q, consultations q ev = [] →
        consultations q (log ++ ev) = consultations q log := by
      intro ev q he; rw [aux_st_cons_append, he, List.append_nil]
    simp only [Starts.step]
    split
    · refine ⟨?_, ?_, h.runs, fun r hr => Nat.lt_succ_of_lt (h.lt r hr), ?_, ?_, ?_, ?_⟩
      · rw [aux_st_masks_append, h.m]; simp [masksInstalled]
      · intro u; rw [aux_st_reg_append, h.p]; simp [isRegistered]
      · intro r hr k hk
        obtain ⟨h1, h2, h3⟩ := h.ph r hr k hk
        exact ⟨(hcc _ _ (by simp [consultations])).trans h1, h2, by simpa using h3⟩
      · intro r hr; exact List.mem_append_left _ (h.recd r hr)
      · intro q hq
        have := h.fresh q (Nat.le_of_succ_le hq)
        exact ⟨(hcc _ _ (by simp [consultations])).trans this.1, by simpa using this.2⟩
      · intro q
        obtain ⟨k, hk | ⟨h1, h2, h3⟩⟩ := h.all q
        · exact ⟨k, .inl ((hcc _ _ (by simp [consultations])).trans hk)⟩
        · exact ⟨k, .inr ⟨(hcc _ _ (by simp [consultations])).trans h1, h2, by simpa using h3⟩⟩
    · have hf := h.fresh s.received (Nat.le_refl _)
      refine ⟨?_, ?_, ?_, ?_, ?_, ?_, ?_, ?_⟩
      · rw [aux_st_masks_append, h.m]; simp [masksInstalled]
      · intro u; rw [aux_st_reg_append, h.p]; simp [isRegistered]
      · simp only [List.map_append, List.map_cons, List.map_nil]
        refine List.nodup_append.mpr ⟨h.runs, by simp, ?_⟩
        intro a ha b hb
        simp only [List.mem_singleton] at hb
        subst hb
        obtain ⟨r, hr, rfl⟩ := List.mem_map.mp ha
        exact Nat.ne_of_lt (h.lt r hr)
      · intro r hr
        simp only [List.mem_append, List.mem_singleton] at hr
        rcases hr with hr | rfl
        · exact Nat.lt_succ_of_lt (h.lt r hr)
        · exact Nat.lt_succ_self _
      · intro r hr k hk
        simp only [List.mem_append, List.mem_singleton] at hr
        rcases hr with hr | rfl
        · obtain ⟨h1, h2, h3⟩ := h.ph r hr k hk
          exact ⟨(hcc _ _ (by simp [consultations])).trans h1, h2, by simpa using h3⟩
        · simp only [StPhase.masks.injEq] at hk
          subst hk
          exact ⟨(hcc _ _ (by simp [consultations])).trans hf.1, Nat.zero_le _, by simpa using hf.2⟩
      · intro r hr
        simp only [List.mem_append, List.mem_singleton] at hr
        rcases hr with hr | rfl
        · exact List.mem_append_left _ (h.recd r hr)
        · exact List.mem_append_right _ List.mem_cons_self
      · intro q hq
        have := h.fresh q (Nat.le_of_succ_le hq)
        exact ⟨(hcc _ _ (by simp [consultations])).trans this.1, by simpa using this.2⟩
      · intro q
        by_cases hq : q = s.received
        · subst hq
          exact ⟨0, .inl ((hcc _ _ (by simp [consultations])).trans hf.1)⟩
        · obtain ⟨k, hk | ⟨h1, h2, h3⟩⟩ := h.all q
          · exact ⟨k, .inl ((hcc _ _ (by simp [consultations])).trans hk)⟩
          · refine ⟨k, .inr ⟨(hcc _ _ (by simp [consultations])).trans h1, ?_, by simpa using h3⟩⟩
            intro r hr
            simp only [List.mem_append, List.mem_singleton] at hr
            rcases hr with hr | rfl
            · exact h2 r hr
            · exact Ne.symm hq
  | defer chan =>
    simp only [Starts.step]
    split
    · refine aux_st_mask_quiet h _ ?_ (Nat.le_refl _) ?_ h.runs (fun _ hr => hr) rfl ?_ ?_ <;>
        simp [isRegistered, consultations, masksInstalled]
      simp [← h.m, masksInstalled]
    · refine aux_st_mask_quiet h _ ?_ (Nat.le_refl _) ?_ h.runs (fun _ hr => hr) rfl ?_ ?_ <;>
        simp [isRegistered, consultations, masksInstalled]
      simp [← h.m, masksInstalled]
  | handlerReturns i st =>
    simp only [Starts.step]
    split
    · simpa using h
    · split
      · simpa using h
      · split
        · refine aux_st_mask_quiet h _ ?_ (Nat.le_refl _) ?_ (hers i) (hsub i) rfl ?_ ?_ <;>
            simp [isRegistered, consultations, masksInstalled]
          simp [← h.m, masksInstalled]
        · split
          · refine aux_st_mask_quiet h _ ?_ (Nat.le_refl _) ?_ (hers i) (hsub i) rfl ?_ ?_ <;>
              simp [isRegistered, consultations, masksInstalled]
            simp [← h.m, masksInstalled]
          · exact aux_st_mask_answer h _ _ rfl rfl (hers i) (hsub i) rfl
  | notify chan a =>
    simp only [Starts.step]
    split
    · refine aux_st_mask_quiet h _ ?_ (Nat.le_refl _) ?_ h.runs (fun _ hr => hr) rfl ?_ ?_ <;>
        simp [isRegistered, consultations, masksInstalled]
      simp [← h.m, masksInstalled]
    · exact aux_st_mask_answer h _ _ rfl rfl h.runs (fun _ hr => hr) rfl
  | close chan =>
    simp only [Starts.step]
    split
    · simpa using h
    · refine aux_st_mask_quiet h _ ?_ (Nat.le_refl _) ?_ h.runs (fun _ hr => hr) rfl ?_ ?_ <;>
        simp [isRegistered, consultations, masksInstalled, Starts.remove]
      simp [← h.m, masksInstalled]
  | proceed i f sk =>
    simp only [Starts.step]
    cases hr : s.running[i]? with
    | none => simpa using h
    | some r =>
      have hrm := List.mem_of_getElem? hr
      simp only
      cases hp : r.phase with
      | handler ch => simpa using h
      | masks k =>
        obtain ⟨hc, hk, hno⟩ := h.ph r hrm k hp
        have hme := aux_st_mem_erase hr h.runs
        simp only
        split
        · split
          · -- filtered
            have hev : ∀ (e : StEvent), (e = .skipped r.req ∨ e = .answered r.req false) →
                aux_st_Mask (log ++ [.consulted r.req k true, e]) { s with running := s.running.eraseIdx i } := by
              intro e he
              have hce : ∀ q, consultations q (log ++ [.consulted r.req k true, e]) =
                  consultations q log ++ if q = r.req then [(k, true)] else [] := by
                intro q
                rw [aux_st_cons_append]
                by_cases hq : q = r.req
                · rcases he with rfl | rfl <;> simp [consultations, hq]
                · rcases he with rfl | rfl <;> simp [consultations, hq, Ne.symm hq]
              have hoe : ∀ q u, .offered q u ∉ log → .offered q u ∉ log ++ [.consulted r.req k true, e] := by
                intro q u hn
                rcases he with rfl | rfl <;> simpa using hn
              refine ⟨?_, ?_, hers i, fun x hx => h.lt x (hsub i x hx), ?_, ?_, ?_, ?_⟩
              · rw [aux_st_masks_append, h.m]; rcases he with rfl | rfl <;> simp [masksInstalled]
              · intro u; rw [aux_st_reg_append, h.p]; rcases he with rfl | rfl <;> simp [isRegistered]
              · intro x hx j hj
                have hx := (hme x).mp hx
                obtain ⟨h1, h2, h3⟩ := h.ph x hx.1 j hj
                refine ⟨?_, h2, fun u => hoe _ u (h3 u)⟩
                rw [hce, if_neg hx.2, List.append_nil]; exact h1
              · intro x hx; exact List.mem_append_left _ (h.recd x (hsub i x hx))
              · intro q hq
                have := h.fresh q hq
                have hne : q ≠ r.req := Ne.symm (Nat.ne_of_lt (Nat.lt_of_lt_of_le (h.lt r hrm) hq))
                exact ⟨by rw [hce, if_neg hne, List.append_nil]; exact this.1, fun u => hoe q u (this.2 u)⟩
              · intro q
                by_cases hq : q = r.req
                · subst hq
                  refine ⟨k, .inr ⟨by rw [hce, if_pos rfl, hc], ?_, fun u => hoe _ u (hno u)⟩⟩
                  intro x hx
                  exact ((hme x).mp hx).2
                · obtain ⟨j, hj | ⟨h1, h2, h3⟩⟩ := h.all q
                  · exact ⟨j, .inl (by rw [hce, if_neg hq, List.append_nil]; exact hj)⟩
                  · exact ⟨j, .inr ⟨by rw [hce, if_neg hq, List.append_nil]; exact h1,
                      fun x hx => h2 x (hsub i x hx), fun u => hoe q u (h3 u)⟩⟩
            cases sk
            · exact hev _ (.inr rfl)
            · exact hev _ (.inl rfl)
          · -- passed
            rename_i hlt _
            have hms := aux_st_mem_set (r' := { r with phase := .masks (k + 1) }) hr h.runs
            have hce : ∀ q, consultations q (log ++ [.consulted r.req k false]) =
                consultations q log ++ if q = r.req then [(k, false)] else [] := by
              intro q
              rw [aux_st_cons_append]
              by_cases hq : q = r.req
              · simp [consultations, hq]
              · simp [consultations, hq, Ne.symm hq]
            refine ⟨?_, ?_, ?_, ?_, ?_, ?_, ?_, ?_⟩
            · rw [aux_st_masks_append, h.m]; simp [masksInstalled]
            · intro u; rw [aux_st_reg_append, h.p]; simp [isRegistered]
            · show ((s.running.set i { r with phase := .masks (k + 1) }).map (·.req)).Nodup
              rw [aux_st_set_reqs s.running i r { r with phase := .masks (k + 1) } hr rfl]
              exact h.runs
            · intro x hx
              rcases (hms x).mp hx with rfl | ⟨hx, _⟩
              · exact h.lt r hrm
              · exact h.lt x hx
            · intro x hx j hj
              rcases (hms x).mp hx with rfl | ⟨hx, hne⟩
              · simp only [StPhase.masks.injEq] at hj
                subst hj
                refine ⟨?_, hlt, by simpa using hno⟩
                rw [hce, if_pos rfl, hc, aux_st_falses_succ]
              · obtain ⟨h1, h2, h3⟩ := h.ph x hx j hj
                refine ⟨?_, h2, by simpa using h3⟩
                rw [hce, if_neg hne, List.append_nil]; exact h1
            · intro x hx
              rcases (hms x).mp hx with rfl | ⟨hx, _⟩
              · exact List.mem_append_left _ (h.recd r hrm)
              · exact List.mem_append_left _ (h.recd x hx)
            · intro q hq
              have := h.fresh q hq
              have hne : q ≠ r.req := Ne.symm (Nat.ne_of_lt (Nat.lt_of_lt_of_le (h.lt r hrm) hq))
              exact ⟨by rw [hce, if_neg hne, List.append_nil]; exact this.1, by simpa using this.2⟩
            · intro q
              by_cases hq : q = r.req
              · subst hq
                exact ⟨k + 1, .inl (by rw [hce, if_pos rfl, hc, aux_st_falses_succ])⟩
              · obtain ⟨j, hj | ⟨h1, h2, h3⟩⟩ := h.all q
                · exact ⟨j, .inl (by rw [hce, if_neg hq, List.append_nil]; exact hj)⟩
                · refine ⟨j, .inr ⟨by rw [hce, if_neg hq, List.append_nil]; exact h1, ?_, by simpa using h3⟩⟩
                  intro x hx
                  rcases (hms x).mp hx with rfl | ⟨hx, _⟩
                  · exact Ne.symm hq
                  · exact h2 x hx
        · -- no more masks
          have hdrop : ∀ cr, aux_st_Mask (log ++ [.answered r.req false])
              { s with running := s.running.eraseIdx i, created := cr } := by
            intro cr
            refine aux_st_mask_quiet h _ ?_ (Nat.le_refl _) ?_ (hers i) (hsub i) rfl ?_ ?_ <;>
              simp [isRegistered, consultations, masksInstalled]
            simp [← h.m, masksInstalled]
          simp only [Starts.handle]
          split
          · exact hdrop s.created
          · split
            · exact hdrop _
            · split
              · exact hdrop _
              · have hms := aux_st_mem_set (r' := { r with phase := .handler s.created }) hr h.runs
                have hce : ∀ q, consultations q (log ++ [.offered r.req r.uri]) = consultations q log := by
                  intro q
                  rw [aux_st_cons_append]
                  simp [consultations]
                have hoe : ∀ q, q ≠ r.req → (∀ u, .offered q u ∉ log) →
                    ∀ u, .offered q u ∉ log ++ [.offered r.req r.uri] := by
                  intro q hq hn u
                  simp [hn u, hq]
                refine ⟨?_, ?_, ?_, ?_, ?_, ?_, ?_, ?_⟩
                · rw [aux_st_masks_append, h.m]; simp [masksInstalled]
                · intro u; rw [aux_st_reg_append, h.p]; simp [isRegistered]
                · show ((s.running.set i { r with phase := .handler s.created }).map (·.req)).Nodup
                  rw [aux_st_set_reqs s.running i r { r with phase := .handler s.created } hr rfl]
                  exact h.runs
                · intro x hx
                  rcases (hms x).mp hx with rfl | ⟨hx, _⟩
                  · exact h.lt r hrm
                  · exact h.lt x hx
                · intro x hx j hj
                  rcases (hms x).mp hx with rfl | ⟨hx, hne⟩
                  · exact absurd hj (by simp)
                  · obtain ⟨h1, h2, h3⟩ := h.ph x hx j hj
                    exact ⟨(hce _).trans h1, h2, hoe _ hne h3⟩
                · intro x hx
                  rcases (hms x).mp hx with rfl | ⟨hx, _⟩
                  · exact List.mem_append_left _ (h.recd r hrm)
                  · exact List.mem_append_left _ (h.recd x hx)
                · intro q hq
                  have := h.fresh q hq
                  have hne : q ≠ r.req := Ne.symm (Nat.ne_of_lt (Nat.lt_of_lt_of_le (h.lt r hrm) hq))
                  exact ⟨(hce q).trans this.1, hoe q hne this.2⟩
                · intro q
                  by_cases hq : q = r.req
                  · subst hq
                    exact ⟨k, .inl ((hce _).trans hc)⟩
                  · obtain ⟨j, hj | ⟨h1, h2, h3⟩⟩ := h.all q
                    · exact ⟨j, .inl ((hce q).trans hj)⟩
                    · refine ⟨j, .inr ⟨(hce q).trans h1, ?_, hoe q hq h3⟩⟩
                      intro x hx
                      rcases (hms x).mp hx with rfl | ⟨hx, _⟩
                      · exact Ne.symm hq
                      · exact h2 x hx

theorem aux_st_mask_run (ops : List StOp) : ∀ (log : List StEvent) (s : Starts), aux_st_Mask log s →
    aux_st_Mask (log ++ (s.run ops).1) (s.run ops).2 := by
  induction ops with
  | nil => intro log s h; simpa [Starts.run] using h
  | cons op ops ih =>
    intro log s h
    simp only [Starts.run]
    rw [← List.append_assoc]
    exact ih _ _ (aux_st_mask_step h op)

theorem aux_st_mask_init : aux_st_Mask [] Starts.init := by
  refine ⟨?_, ?_, ?_, ?_, ?_, ?_, ?_, ?_⟩ <;>
    simp [Starts.init, masksInstalled, isRegistered, consultations, aux_st_falses]

/-- **C44** (offered): after any history, the next request offered to the application is one that was
received for that profile, the profile is registered at that moment, and all the masks installed so far were
asked about the request, in the order installed, and none filters it. -/
theorem C44_offered (ops : List StOp) (op : StOp) (req : Nat) (uri : String)
    (h : .offered req uri ∈ ((Starts.init.run ops).2.step op).1) :
    isRegistered uri (Starts.init.run ops).1 false = true ∧
    (∃ num, .received req num uri ∈ (Starts.init.run ops).1) ∧
    consultations req (Starts.init.run ops).1 =
      (List.range (masksInstalled (Starts.init.run ops).1)).map (·, false) := by
  have hi := aux_st_mask_run ops [] Starts.init aux_st_mask_init
  simp only [List.nil_append] at hi
  generalize (Starts.init.run ops).1 = log at hi ⊢
  generalize (Starts.init.run ops).2 = s at hi h
  have hans : ∀ (s : Starts) c b, .offered req uri ∉ (s.answer c b).1 := by
    intro s c b; cases b <;> simp [Starts.answer]
  cases op with
  | register uri => simp [Starts.step] at h
  | unregister uri => simp [Starts.step] at h
  | setMask => simp [Starts.step] at h
  | start num uri => simp only [Starts.step] at h; split at h <;> simp at h
  | defer chan => simp only [Starts.step] at h; split at h <;> simp at h
  | close chan => simp only [Starts.step] at h; split at h <;> simp at h
  | handlerReturns i st =>
    simp only [Starts.step] at h
    split at h
    · simp at h
    · split at h
      · simp at h
      · split at h
        · simp at h
        · split at h
          · simp at h
          · exact absurd h (hans _ _ _)
  | notify chan a =>
    simp only [Starts.step] at h
    split at h
    · simp at h
    · exact absurd h (hans _ _ _)
  | proceed i f sk =>
    simp only [Starts.step] at h
    cases hr : s.running[i]? with
    | none => simp [hr] at h
    | some r =>
      have hrm := List.mem_of_getElem? hr
      simp only [hr] at h
      cases hp : r.phase with
      | handler ch => simp [hp] at h
      | masks k =>
        simp only [hp] at h
        obtain ⟨hc, hk, _⟩ := hi.ph r hrm k hp
        split at h
        · split at h
          · cases sk <;> simp at h
          · simp at h
        · rename_i hge
          simp only [Starts.handle] at h
          split at h
          · simp at h
          · rename_i hreg
            split at h
            · simp at h
            · split at h
              · simp at h
              · simp only [List.mem_singleton, StEvent.offered.injEq] at h
                obtain ⟨rfl, rfl⟩ := h
                refine ⟨?_, ⟨r.num, hi.recd r hrm⟩, ?_⟩
                · rw [hi.p]
                  simpa using hreg
                · rw [hc, hi.m, show k = s.masks by omega]
                  rfl

example : .offered 0 "a" ∈ ((Starts.init.run [.register "a", .setMask, .start 3 "a", .setMask,
    .proceed 0 false false, .proceed 0 false false]).2.step (.proceed 0 false false)).1 := by decide +kernel

/-- **C44** (masks): after any history, the masks asked about a request are the first ones installed, in
that order, each once, and only the last one asked may have filtered it; if it did, the request was never
offered to the application. -/
theorem C44_masks_in_order (ops : List StOp) (req : Nat) :
    ∃ k, consultations req (Starts.init.run ops).1 = (List.range k).map (·, false) ∨
      (consultations req (Starts.init.run ops).1 = (List.range k).map (·, false) ++ [(k, true)] ∧
        ∀ uri, .offered req uri ∉ (Starts.init.run ops).1) := by
  have hi := aux_st_mask_run ops [] Starts.init aux_st_mask_init
  simp only [List.nil_append] at hi
  obtain ⟨k, h | ⟨h1, _, h2⟩⟩ := hi.all req
  · exact ⟨k, .inl h⟩
  · exact ⟨k, .inr ⟨h1, h2⟩⟩

/-- Three masks; the second filters. -/
example : consultations 0 (Starts.init.run [.register "a", .setMask, .setMask, .setMask, .start 3 "a",
    .proceed 0 false false, .proceed 0 true false]).1 = [(0, false), (1, true)] := by decide +kernel

end Verif.Props
