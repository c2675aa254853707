import Verif.Spec.PortShare
/-!
# C72: port sharing
-/
namespace Verif.Props
open Verif.Model Verif.Spec

/-- C72, full: handlers are asked about the first four octets that the peer sent, only those installed for the address and port of the
listener, each one once, nobody if the session begins with a greeting; and nobody is asked once the connection was taken or
closed. False of the code. -/
def C72_statement : Prop :=
  ∀ addr port accepted handlers ops, let r := (PortShare.init accepted handlers).run ops
    (∀ h os, .ask h os ∈ r.2 → os = (shareSent ops).take 4 ∧ shareFits h addr port ∧ ¬ [82, 80, 89] <+: shareSent ops) ∧
    (∀ h, (shareAsked r.2).count h ≤ r.1.handlers.count h) ∧
    (∀ h l1 l2, r.2 = l1 ++ .taken h :: l2 → l2 = []) ∧ (∀ l1 l2, r.2 = l1 ++ .shut :: l2 → l2 = [])

/-- The octets begin with "RPY". -/
theorem aux_ps_rpy (l : List Nat) : startsRpy l = true ↔ [82, 80, 89] <+: l := by
  rw [startsRpy, beq_iff_eq]
  match l with
  | [] => simp
  | [a] => simp [List.prefix_cons_iff]
  | [a, b] => simp [List.prefix_cons_iff]
  | a :: b :: c :: r =>
    simp only [List.take_succ_cons, List.take_zero, List.cons_prefix_cons, List.nil_prefix, and_true, List.cons.injEq]
    constructor
    · rintro ⟨rfl, rfl, rfl⟩; exact ⟨rfl, rfl, rfl⟩
    · rintro ⟨rfl, rfl, rfl⟩; exact ⟨rfl, rfl, rfl⟩

theorem aux_ps_rpy' (l : List Nat) : startsRpy l = false ↔ ¬ [82, 80, 89] <+: l := by
  rw [← aux_ps_rpy]; simp

theorem aux_ps_run_append (a b : List ShareOp) : ∀ s : PortShare, s.run (a ++ b) =
    (((s.run a).1.run b).1, (s.run a).2 ++ ((s.run a).1.run b).2) := by
  induction a with
  | nil => intro s; simp [PortShare.run]
  | cons op a ih => intro s; simp only [List.cons_append, PortShare.run, ih, List.append_assoc]

theorem aux_ps_ask (octets : List Nat) (answers : Nat → ShareAnswer) (hs : List ShareHandler) : ∀ k,
    ∃ n, n ≤ hs.length ∧ (∀ i, i + 1 < n → answers (k + i) = .nothing) ∧
      (((askHandlers octets answers hs k).2 = .nothing ∧ n = hs.length ∧ (askHandlers octets answers hs k).1 = hs.map (.ask · octets)
          ∧ ∀ i, i < n → answers (k + i) = .nothing) ∨
       (∃ h, 0 < n ∧ hs[n - 1]? = some h ∧
          ((answers (k + (n - 1)) = .found ∧ (askHandlers octets answers hs k).2 = .found ∧
              (askHandlers octets answers hs k).1 = (hs.take n).map (.ask · octets) ++ [.taken h]) ∨
           (answers (k + (n - 1)) = .failed ∧ (askHandlers octets answers hs k).2 = .failed ∧
              (askHandlers octets answers hs k).1 = (hs.take n).map (.ask · octets) ++ [.shut])))) := by
  induction hs with
  | nil => intro k; exact ⟨0, by simp [askHandlers]⟩
  | cons h hs ih =>
    intro k
    cases ha : answers k with
    | found => exact ⟨1, by simp, by intro i hi; omega, .inr ⟨h, by simp [askHandlers, ha]⟩⟩
    | failed => exact ⟨1, by simp, by intro i hi; omega, .inr ⟨h, by simp [askHandlers, ha]⟩⟩
    | nothing =>
      obtain ⟨n, hn, h1, h2⟩ := ih (k + 1)
      have shift : ∀ i, k + 1 + i = k + (i + 1) := by intro i; omega
      refine ⟨n + 1, by simp; omega, ?_, ?_⟩
      · intro i hi
        cases i with
        | zero => exact ha
        | succ i => rw [← shift]; exact h1 i (by omega)
      · rcases h2 with ⟨e1, e2, e3, e4⟩ | ⟨x, hx, hg, h3⟩
        · refine .inl ⟨by simp [askHandlers, ha, e1], by simp [e2], by simp [askHandlers, ha, e3], ?_⟩
          intro i hi
          cases i with
          | zero => exact ha
          | succ i => rw [← shift]; exact e4 i (by omega)
        · have e : n + 1 - 1 = (n - 1) + 1 := by omega
          refine .inr ⟨x, by omega, by rw [e]; simpa using hg, ?_⟩
          rw [e, ← shift]
          rcases h3 with ⟨a, b, c⟩ | ⟨a, b, c⟩
          · exact .inl ⟨a, by simp [askHandlers, ha, b], by simp [askHandlers, ha, c]⟩
          · exact .inr ⟨a, by simp [askHandlers, ha, b], by simp [askHandlers, ha, c]⟩

theorem aux_ps_check (s : PortShare) (answers : Nat → ShareAnswer) :
    (s.check answers = (s, []) ∧ (s.accepted = false ∨ s.handlers = [] ∨ s.detected = true ∨ s.avail.length < 4)) ∨
    (s.accepted = true ∧ s.handlers ≠ [] ∧ s.detected = false ∧ 4 ≤ s.avail.length ∧
      ((startsRpy s.avail = true ∧ s.check answers = ({ s with detected := true }, [])) ∨
       (startsRpy s.avail = false ∧ s.check answers =
          (match (askHandlers (s.avail.take 4) answers s.handlers 0).2 with
            | .nothing => s
            | .found => { s with detected := true }
            | .failed => { s with ok := false }, (askHandlers (s.avail.take 4) answers s.handlers 0).1)))) := by
  simp only [PortShare.check]
  split
  · next h => exact .inl ⟨rfl, .inl h⟩
  · next h1 =>
    split
    · next h => exact .inl ⟨rfl, .inr (.inl (by simpa using h))⟩
    · next h2 =>
      split
      · next h => exact .inl ⟨rfl, .inr (.inr (.inl h))⟩
      · next h3 =>
        split
        · next h => exact .inl ⟨rfl, .inr (.inr (.inr h))⟩
        · next h4 =>
          refine .inr ⟨by simpa using h1, by simpa using h2, by simpa using h3, by omega, ?_⟩
          split
          · next h => exact .inl ⟨h, rfl⟩
          · next h =>
            refine .inr ⟨by simpa using h, ?_⟩
            split <;> simp_all

/-- One look at the connection: either nobody is asked, or the handlers are asked in the order of their installation about the
four octets that wait, up to the first one that takes the connection (it is then given to that one) or fails (it is then closed).
It is always the case that somebody is asked when the connection was accepted, its transport is not known, four octets wait, and they
do not begin a greeting. -/
theorem C72_order (s : PortShare) (answers : Nat → ShareAnswer) (n : Nat) (hok : s.ok = true) :
    let r := s.step (.read answers n)
    (r.2 = [] ∧ r.1.ok = true ∧
      (s.accepted = false ∨ s.handlers = [] ∨ s.detected = true ∨ s.avail.length < 4 ∨ [82, 80, 89] <+: s.avail)) ∨
    (s.accepted = true ∧ s.detected = false ∧ 4 ≤ s.avail.length ∧ ¬ [82, 80, 89] <+: s.avail ∧
      ∃ k, k ≤ s.handlers.length ∧ (∀ i, i + 1 < k → answers i = .nothing) ∧
        ((r.2 = s.handlers.map (.ask · (s.avail.take 4)) ∧ (∀ i, i < s.handlers.length → answers i = .nothing) ∧ r.1.ok = true ∧
            r.1.detected = false) ∨
         (∃ h, 0 < k ∧ s.handlers[k - 1]? = some h ∧
           ((answers (k - 1) = .found ∧ r.2 = (s.handlers.take k).map (.ask · (s.avail.take 4)) ++ [.taken h] ∧ r.1.ok = true ∧
              r.1.detected = true) ∨
            (answers (k - 1) = .failed ∧ r.2 = (s.handlers.take k).map (.ask · (s.avail.take 4)) ++ [.shut] ∧ r.1.ok = false))))) := by
  rw [← aux_ps_rpy]
  simp only [PortShare.step, hok]
  rcases aux_ps_check s answers with ⟨e, h⟩ | ⟨h1, h2, h3, h4, ⟨h5, e⟩ | ⟨h5, e⟩⟩ <;> simp only [e]
  · refine .inl ⟨by simp, by simpa using hok, by grind⟩
  · exact .inl ⟨by simp, by simpa using hok, .inr (.inr (.inr (.inr h5)))⟩
  · refine .inr ⟨h1, h3, h4, by simp [h5], ?_⟩
    obtain ⟨k, hk, g1, g2⟩ := aux_ps_ask (s.avail.take 4) answers s.handlers 0
    simp only [Nat.zero_add] at g1 g2
    refine ⟨k, hk, g1, ?_⟩
    rcases g2 with ⟨a, b, c, d⟩ | ⟨x, hx, hg, ⟨a, b, c⟩ | ⟨a, b, c⟩⟩
    · left; rw [a, c]; exact ⟨by simp, by rwa [← b], by simpa using hok, by simpa using h3⟩
    · right; rw [b, c]; exact ⟨x, hx, hg, .inl ⟨a, by simp, by simpa using hok, by simp⟩⟩
    · right; rw [b, c]; exact ⟨x, hx, hg, .inr ⟨a, by simp, by simp⟩⟩

theorem aux_ps_silent (ops : List ShareOp) : ∀ s : PortShare, s.ok = false ∨ s.accepted = false ∨ (s.detected = true ∧ ∀ op ∈ ops, notTuned op) →
    (s.run ops).2 = [] ∧ (s.run ops).1.ok = s.ok := by
  induction ops with
  | nil => intro s _; simp [PortShare.run]
  | cons op ops ih =>
    intro s h
    have hstep : (s.step op).2 = [] ∧ (s.step op).1.ok = s.ok ∧
        ((s.step op).1.ok = false ∨ (s.step op).1.accepted = false ∨ ((s.step op).1.detected = true ∧ ∀ op ∈ ops, notTuned op)) := by
      cases op with
      | arrive os => simp [PortShare.step]; grind
      | install g => simp [PortShare.step]; grind
      | tune => simp [PortShare.step]; rcases h with h | h | h
                · exact .inl h
                · first | exact .inr (.inl h) | exact .inr h
                · exact absurd (h.2 .tune (by simp)) (by simp [notTuned])
      | read answers n =>
        simp only [PortShare.step]
        split
        · next ho => exact ⟨rfl, rfl, .inl ho⟩
        · next ho =>
          rcases aux_ps_check s answers with ⟨e, _⟩ | ⟨h1, h2, h3, _⟩
          · rw [e]; grind
          · exfalso
            rcases h with h | h | h
            · exact ho h
            · simp [h1] at h
            · simp [h3] at h
    obtain ⟨e1, e2, e3⟩ := hstep
    have := ih _ e3
    simp [PortShare.run, e1, this.1, this.2, e2]

/-- On a connection that this side opened nobody is ever asked. -/
theorem C72_only_accepted (handlers : List ShareHandler) (ops : List ShareOp) :
    ((PortShare.init false handlers).run ops).2 = [] := (aux_ps_silent ops _ (.inr (.inl rfl))).1

theorem aux_ps_read (s : PortShare) (answers : Nat → ShareAnswer) (n : Nat) (e : ShareEvent) (l1 l2 : List ShareEvent)
    (he : e = .shut ∨ ∃ h, e = .taken h) (h : (s.step (.read answers n)).2 = l1 ++ e :: l2) :
    l2 = [] ∧ ((s.step (.read answers n)).1.ok = false ∨ (s.step (.read answers n)).1.detected = true) := by
  cases hok : s.ok with
  | false => simp [PortShare.step, hok] at h
  | true =>
    have haux : ∀ (as : List ShareHandler) (os : List Nat) (x : ShareEvent) (l1 l2 : List ShareEvent),
        as.map (.ask · os) ++ [x] = l1 ++ e :: l2 → l2 = [] := by
      intro as os x l1 l2 hl
      rcases List.eq_nil_or_concat l2 with h2 | ⟨l3, y, h2⟩
      · exact h2
      · exfalso
        rw [h2, List.concat_eq_append, ← List.cons_append, ← List.append_assoc] at hl
        have := (List.append_inj' hl rfl).1
        have hm : e ∈ as.map (ShareEvent.ask · os) := by rw [this]; simp
        obtain ⟨a, _, ha⟩ := List.mem_map.1 hm
        rcases he with rfl | ⟨g, rfl⟩ <;> simp at ha
    rcases C72_order s answers n hok with ⟨e1, _⟩ | ⟨_, _, _, _, k, _, _, h1⟩
    · rw [e1] at h; simp at h
    · rcases h1 with ⟨e1, _⟩ | ⟨x, _, _, ⟨_, e1, _, e2⟩ | ⟨_, e1, e2⟩⟩
      · exfalso
        rw [e1] at h
        have hm : e ∈ s.handlers.map (ShareEvent.ask · (s.avail.take 4)) := by rw [h]; simp
        obtain ⟨a, _, ha⟩ := List.mem_map.1 hm
        rcases he with rfl | ⟨g, rfl⟩ <;> simp at ha
      · rw [e1] at h; exact ⟨haux _ _ _ _ _ h, .inr e2⟩
      · rw [e1] at h; exact ⟨haux _ _ _ _ _ h, .inl e2⟩

/-- Once a handler took the connection, or it was closed, nobody is asked any more. Missing: sessions tuned later. -/
theorem C72_settled_partial (accepted : Bool) (handlers : List ShareHandler) (ops : List ShareOp) (ht : ∀ op ∈ ops, notTuned op)
    (e : ShareEvent) (he : e = .shut ∨ ∃ h, e = .taken h) (l1 l2 : List ShareEvent)
    (h : ((PortShare.init accepted handlers).run ops).2 = l1 ++ e :: l2) : l2 = [] := by
  have key : ∀ (ops : List ShareOp) (s : PortShare) (l1 l2 : List ShareEvent), (∀ op ∈ ops, notTuned op) →
      (s.run ops).2 = l1 ++ e :: l2 → l2 = [] := by
    intro ops
    induction ops with
    | nil => intro s l1 l2 _ h; simp [PortShare.run] at h
    | cons op ops ih =>
      intro s l1 l2 ht h
      have ht' : ∀ op ∈ ops, notTuned op := fun o ho => ht o (by simp [ho])
      simp only [PortShare.run] at h
      cases op with
      | read answers n =>
        rw [List.append_eq_append_iff] at h
        rcases h with ⟨a, h1, h2⟩ | ⟨b, h1, h2⟩
        · exact ih _ a l2 ht' h2
        · cases b with
          | nil => exact ih _ [] l2 ht' (by simpa using h2.symm)
          | cons x b =>
            simp only [List.cons_append, List.cons.injEq] at h2
            obtain ⟨rfl, h2⟩ := h2
            obtain ⟨hb, hd⟩ := aux_ps_read s answers n e l1 b he h1
            have := aux_ps_silent ops (s.step (.read answers n)).1 (by
              rcases hd with hd | hd
              · exact .inl hd
              · exact .inr (.inr ⟨hd, ht'⟩))
            rw [hb, this.1] at h2
            simpa using h2
      | arrive os => exact ih _ l1 l2 ht' (by simpa [PortShare.step] using h)
      | install g => exact ih _ l1 l2 ht' (by simpa [PortShare.step] using h)
      | tune => exact ih _ l1 l2 ht' (by simpa [PortShare.step] using h)
  exact key ops _ l1 l2 ht h

/-- A session that begins with a greeting is never offered to a handler, nor closed. Missing: a greeting of which less than four
octets are there at first, handlers installed only later, and sessions tuned later. -/
theorem C72_beep_partial (accepted : Bool) (handlers : List ShareHandler) (ops : List ShareOp) (hh : handlers ≠ [])
    (ht : ∀ op ∈ ops, notTuned op) (hf : fourFirst [] ops) (hb : [82, 80, 89] <+: shareSent ops) :
    ((PortShare.init accepted handlers).run ops).2 = [] ∧ ((PortShare.init accepted handlers).run ops).1.ok = true := by
  have key : ∀ (ops : List ShareOp) (s : PortShare), s.handlers ≠ [] → s.detected = false → s.ok = true → (∀ op ∈ ops, notTuned op) →
      fourFirst s.avail ops → startsRpy (s.avail ++ shareSent ops) = true → (s.run ops).2 = [] ∧ (s.run ops).1.ok = true := by
    intro ops
    induction ops with
    | nil => intro s _ _ ho _ _ _; exact ⟨rfl, ho⟩
    | cons op ops ih =>
      intro s h1 h2 ho ht hf hb
      have ht' : ∀ op ∈ ops, notTuned op := fun o ho => ht o (by simp [ho])
      cases op with
      | arrive os =>
        have := ih { s with avail := s.avail ++ os } h1 h2 ho ht' hf (by simpa [shareSent] using hb)
        simpa [PortShare.run, PortShare.step] using this
      | install g =>
        have := ih { s with handlers := s.handlers ++ [g] } (by simp) h2 ho ht' hf (by simpa [shareSent] using hb)
        simpa [PortShare.run, PortShare.step] using this
      | tune => exact absurd (ht .tune (by simp)) (by simp [notTuned])
      | read answers n =>
        simp only [fourFirst] at hf
        have hr : startsRpy s.avail = true := by
          simp only [startsRpy, beq_iff_eq] at hb ⊢
          rw [List.take_append_of_le_length (by omega)] at hb
          exact hb
        have : (s.step (.read answers n)).2 = [] ∧ (s.step (.read answers n)).1.ok = true ∧
            ((s.step (.read answers n)).1.accepted = false ∨ (s.step (.read answers n)).1.detected = true) := by
          simp only [PortShare.step, ho]
          rcases aux_ps_check s answers with ⟨e, h⟩ | ⟨g1, g2, g3, g4, ⟨g5, e⟩ | ⟨g5, e⟩⟩
          · rw [e]; simp [ho]; simp [h1, h2] at h; rcases h with h | h
            · exact .inl h
            · omega
          · rw [e]; simp [ho]
          · simp [hr] at g5
        obtain ⟨e1, e2, e3⟩ := this
        have hs := aux_ps_silent ops (s.step (.read answers n)).1 (by
          rcases e3 with h | h
          · exact .inr (.inl h)
          · exact .inr (.inr ⟨h, ht'⟩))
        simp [PortShare.run, e1, hs.1, hs.2, e2]
  exact key ops _ hh rfl rfl ht hf (by simpa [PortShare.init] using (aux_ps_rpy _).2 hb)

/-- At the first read the handlers are asked about the first four octets that the peer sent, and only handlers installed. -/
theorem C72_first (accepted : Bool) (handlers : List ShareHandler) (pre : List ShareOp) (answers : Nat → ShareAnswer) (n : Nat)
    (hp : ∀ op ∈ pre, (∃ os, op = .arrive os) ∨ ∃ h, op = .install h) (h : ShareHandler) (os : List Nat)
    (ha : .ask h os ∈ ((PortShare.init accepted handlers).run (pre ++ [.read answers n])).2) :
    os = (shareSent pre).take 4 ∧ os.length = 4 ∧ ¬ [82, 80, 89] <+: shareSent pre ∧
    (h ∈ handlers ∨ .install h ∈ pre) := by
  have key : ∀ (pre : List ShareOp) (s : PortShare), (∀ op ∈ pre, (∃ os, op = .arrive os) ∨ ∃ h, op = .install h) →
      (s.run pre).2 = [] ∧ (s.run pre).1.avail = s.avail ++ shareSent pre ∧ (s.run pre).1.ok = s.ok ∧
      ∀ h ∈ (s.run pre).1.handlers, h ∈ s.handlers ∨ .install h ∈ pre := by
    intro pre
    induction pre with
    | nil => intro s _; simp [PortShare.run, shareSent]
    | cons op pre ih =>
      intro s hp
      rcases hp op (by simp) with ⟨os, rfl⟩ | ⟨g, rfl⟩
      · obtain ⟨a, b, c, d⟩ := ih { s with avail := s.avail ++ os } (fun o ho => hp o (by simp [ho]))
        refine ⟨by simpa [PortShare.run, PortShare.step] using a, by simpa [PortShare.run, PortShare.step, shareSent] using b,
          by simpa [PortShare.run, PortShare.step] using c, fun h hh => ?_⟩
        rcases d h (by simpa [PortShare.run, PortShare.step] using hh) with d | d
        · exact .inl d
        · exact .inr (by simp [d])
      · obtain ⟨a, b, c, d⟩ := ih { s with handlers := s.handlers ++ [g] } (fun o ho => hp o (by simp [ho]))
        refine ⟨by simpa [PortShare.run, PortShare.step] using a, by simpa [PortShare.run, PortShare.step, shareSent] using b,
          by simpa [PortShare.run, PortShare.step] using c, fun h hh => ?_⟩
        rcases d h (by simpa [PortShare.run, PortShare.step] using hh) with d | d
        · rcases List.mem_append.1 d with d | d
          · exact .inl d
          · simp at d; exact .inr (by simp [d])
        · exact .inr (by simp [d])
  obtain ⟨a, b, c, d⟩ := key pre (PortShare.init accepted handlers) hp
  rw [aux_ps_run_append, a, List.nil_append] at ha
  have e : ((PortShare.init accepted handlers).run pre).1.avail = shareSent pre := by simpa [PortShare.init] using b
  simp only [PortShare.run, List.append_nil] at ha
  rcases C72_order ((PortShare.init accepted handlers).run pre).1 answers n c with ⟨e1, _⟩ | ⟨_, _, g3, g4, k, _, _, h1⟩
  · rw [e1] at ha; simp at ha
  · rw [e] at g3 g4 h1
    have : os = (shareSent pre).take 4 ∧ h ∈ ((PortShare.init accepted handlers).run pre).1.handlers := by
      have hm : ∀ hs : List ShareHandler, ShareEvent.ask h os ∈ hs.map (ShareEvent.ask · ((shareSent pre).take 4)) → os = (shareSent pre).take 4 ∧ h ∈ hs := by
        intro hs hm
        obtain ⟨a, hmem, e⟩ := List.mem_map.1 hm
        simp at e; obtain ⟨rfl, rfl⟩ := e; exact ⟨rfl, hmem⟩
      rcases h1 with ⟨e1, _⟩ | ⟨x, _, _, ⟨_, e1, _⟩ | ⟨_, e1, _⟩⟩ <;> rw [e1] at ha
      · exact hm _ ha
      · rcases List.mem_append.1 ha with ha | ha
        · exact ⟨(hm _ ha).1, List.mem_of_mem_take (hm _ ha).2⟩
        · simp at ha
      · rcases List.mem_append.1 ha with ha | ha
        · exact ⟨(hm _ ha).1, List.mem_of_mem_take (hm _ ha).2⟩
        · simp at ha
    exact ⟨this.1, by rw [this.1, List.length_take]; omega, g4, d h this.2⟩

/-- "GET " is taken by the second of three handlers; then nothing is asked. "RPY " is not offered to anybody. -/
example :
    ((PortShare.init true [⟨1, none, none⟩, ⟨2, none, none⟩, ⟨3, none, none⟩]).run
      [.arrive [71, 69], .arrive [84, 32, 47], .read (fun k => if k = 1 then .found else .nothing) 0, .arrive [1, 2, 3, 4],
       .read (fun _ => .failed) 0]).2 =
      [.ask ⟨1, none, none⟩ [71, 69, 84, 32], .ask ⟨2, none, none⟩ [71, 69, 84, 32], .taken ⟨2, none, none⟩] ∧
    ((PortShare.init true [⟨1, none, none⟩]).run [.arrive [82, 80, 89, 32, 48], .read (fun _ => .found) 5, .arrive [83, 69, 81, 32],
       .read (fun _ => .found) 4]).2 = [] := by decide

/-- A handler installed for port 443 is asked about a connection whatever its port is. -/
theorem C72_filter_ignored (port : Nat) (h : port ≠ 443) : ∃ ops g os, .ask g os ∈ ((PortShare.init true [⟨1, none, some 443⟩]).run ops).2 ∧
    ¬ shareFits g 0 port :=
  ⟨[.arrive [71, 69, 84, 32], .read (fun _ => .nothing) 0], ⟨1, none, some 443⟩, [71, 69, 84, 32], by decide,
    by simp [shareFits]; exact fun e => h e.symm⟩

/-- A greeting of which two octets come first, a session tuned later, a handler installed later, a handler that found nothing:
each time the handler is asked about octets in the middle of the session, and may take or close it. -/
theorem C72_middle :
    ((PortShare.init true [⟨1, none, none⟩]).run [.arrive [82, 80], .read (fun _ => .nothing) 2, .arrive [89, 32, 48, 32],
      .read (fun _ => .found) 0]).2 = [.ask ⟨1, none, none⟩ [89, 32, 48, 32], .taken ⟨1, none, none⟩] ∧
    ((PortShare.init true [⟨1, none, none⟩]).run [.arrive [82, 80, 89, 32], .read (fun _ => .nothing) 4, .tune, .arrive [23, 3, 3, 1],
      .read (fun _ => .failed) 0]).2 = [.ask ⟨1, none, none⟩ [23, 3, 3, 1], .shut] ∧
    ((PortShare.init true []).run [.arrive [82, 80, 89, 32], .read (fun _ => .nothing) 4, .install ⟨1, none, none⟩, .arrive [77, 83, 71, 32],
      .read (fun _ => .found) 0]).2 = [.ask ⟨1, none, none⟩ [77, 83, 71, 32], .taken ⟨1, none, none⟩] ∧
    ((PortShare.init true [⟨1, none, none⟩]).run [.arrive [71, 69, 84, 32], .read (fun _ => .nothing) 1, .arrive [47], .read (fun _ => .nothing) 0]).2 =
      [.ask ⟨1, none, none⟩ [71, 69, 84, 32], .ask ⟨1, none, none⟩ [69, 84, 32, 47]] := by decide

theorem C72_statement_false : ¬ C72_statement := by
  intro h
  have := (h 0 80 true [⟨1, none, none⟩] [.arrive [82, 80], .read (fun _ => .nothing) 2, .arrive [89, 32, 48, 32],
    .read (fun _ => .found) 0]).1 ⟨1, none, none⟩ [89, 32, 48, 32] (by decide)
  exact absurd this.1 (by decide)

end Verif.Props
