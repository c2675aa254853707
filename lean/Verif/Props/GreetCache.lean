import Verif.Spec.GreetCache
/-! C95: what a connection reports about its peer is what the greetings of that peer said. -/
namespace Verif.Props
open Verif.Model Verif.Spec

theorem aux_gc_cstr (l : List Byte) (h : NUL ∉ l) : cstr l = l := by
  unfold cstr
  induction l with
  | nil => rfl
  | cons a l ih =>
    have ha : a ≠ NUL := fun e => h (by simp [e])
    simp only [List.takeWhile_cons, ne_eq, ha, not_false_eq_true, decide_true, if_true]
    rw [ih (fun e => h (List.mem_cons_of_mem _ e))]

theorem aux_gc_cstr_zero (l r : List Byte) (h : NUL ∉ l) : cstr (l ++ NUL :: r) = l := by
  unfold cstr
  induction l with
  | nil => simp
  | cons a l ih =>
    have ha : a ≠ NUL := fun e => h (by simp [e])
    simp only [List.cons_append, List.takeWhile_cons, ne_eq, ha, not_false_eq_true, decide_true, if_true]
    rw [ih (fun e => h (List.mem_cons_of_mem _ e))]

/-- The block holds what the octets say. -/
def aux_gc_good (x : GreetXml) (blocks : List (Option Advert)) (b : Nat) (body : List Byte) : Prop :=
  ∃ a : Advert, said x body = some a ∧ blocks[b]? = some (some a)

theorem aux_gc_good_append {x : GreetXml} {blocks : List (Option Advert)} {b : Nat} {body : List Byte} (more : List (Option Advert))
    (h : aux_gc_good x blocks b body) : aux_gc_good x (blocks ++ more) b body := by
  obtain ⟨a, h1, h2⟩ := h
  refine ⟨a, h1, ?_⟩
  have hl : b < blocks.length := by
    rcases Nat.lt_or_ge b blocks.length with hl | hl
    · exact hl
    · rw [List.getElem?_eq_none hl] at h2; cases h2
  rw [List.getElem?_append_left hl, h2]

def aux_gc_phase (x : GreetXml) (s : GreetCache x.Doc) (c : Nat) : GcPhase x.Doc → Prop
  | .idle => True
  | .looked body hit => s.holder = some c ∧ NUL ∉ body ∧ hit = gcFind body s.table
  | .parsed body doc => s.holder = some c ∧ NUL ∉ body ∧ gcFind body s.table = none ∧ x.parse body = some doc
  | .found body b => aux_gc_good x s.blocks b body

def aux_gc_conn (x : GreetXml) (blocks : List (Option Advert)) (v : GcConn) (up : Bool) (last : Option (List Byte)) : Prop :=
  v.up = up ∧ match last with
    | none => v.block = none
    | some body => ∃ b, v.block = some b ∧ aux_gc_good x blocks b body

structure aux_gc_inv (x : GreetXml) (s : GreetCache x.Doc) (past : List GcEvent) : Prop where
  table : ∀ k b, gcFind k s.table = some b → aux_gc_good x s.blocks b k
  phase : ∀ c, aux_gc_phase x s c (s.phase c)
  conn : ∀ c, aux_gc_conn x s.blocks (s.conns c) (gcUp c past) (lastGreeting c past)

theorem aux_gc_up_snoc (c : Nat) (past : List GcEvent) (e : GcEvent) : gcUp c (past ++ [e]) = (match e with
    | .connected d => if d = c then true else gcUp c past
    | .shut d => if d = c then false else gcUp c past
    | .refused d _ => if d = c then false else gcUp c past
    | _ => gcUp c past) := by
  unfold gcUp; rw [List.foldl_append]; cases e <;> rfl

theorem aux_gc_last_snoc (c : Nat) (past : List GcEvent) (e : GcEvent) : lastGreeting c (past ++ [e]) = (match e with
    | .accepted d body => if d = c then some body else lastGreeting c past
    | _ => lastGreeting c past) := by
  unfold lastGreeting; rw [List.foldl_append]; cases e <;> rfl

theorem aux_gc_init (x : GreetXml) : aux_gc_inv x .init [] :=
  ⟨(by intro k b h; cases h), (by intro c; trivial), (by intro c; exact ⟨rfl, rfl⟩)⟩

/-- Reading through the fields of a connection. -/
theorem aux_gc_read {x : GreetXml} {s : GreetCache x.Doc} {past : List GcEvent} (hi : aux_gc_inv x s past) (c : Nat)
    (report : Option Advert → GcEvent) : gcRead s c report = report (peerSaid x c past) := by
  have h := (hi.conn c).2
  unfold gcRead peerSaid
  cases hl : lastGreeting c past with
  | none => rw [hl] at h; rw [h]; rfl
  | some body =>
    rw [hl] at h
    obtain ⟨b, hb, a, ha, hk⟩ := h
    rw [hb]
    simp only [hk, Option.bind_some, ha]

theorem aux_gc_quiet {x : GreetXml} {s : GreetCache x.Doc} {past : List GcEvent} (hi : aux_gc_inv x s past) (e : GcEvent)
    (hu : ∀ c, gcUp c (past ++ [e]) = gcUp c past) (hl : ∀ c, lastGreeting c (past ++ [e]) = lastGreeting c past) :
    aux_gc_inv x s (past ++ [e]) :=
  ⟨hi.table, hi.phase, fun c => by rw [hu, hl]; exact hi.conn c⟩

theorem aux_gc_refuse {x : GreetXml} {s : GreetCache x.Doc} {past : List GcEvent} (hi : aux_gc_inv x s past) (c : Nat)
    (body : List Byte) (hh : s.holder = some c) : aux_gc_inv x (gcRefuse s c body).1 (past ++ [.refused c body]) := by
  refine ⟨hi.table, ?_, ?_⟩
  · intro d
    have h := hi.phase d
    simp only [gcRefuse, gcSetPhase, gcSetConn]
    by_cases hd : d = c
    · simp [hd, aux_gc_phase]
    · simp only [hd, if_false]
      cases hp : s.phase d with
      | idle => trivial
      | looked b o => rw [hp] at h; exact absurd (Option.some.inj (h.1.symm.trans hh)) hd
      | parsed b o => rw [hp] at h; exact absurd (Option.some.inj (h.1.symm.trans hh)) hd
      | found b o => rw [hp] at h; exact h
  · intro d
    have h := hi.conn d
    rw [aux_gc_up_snoc, aux_gc_last_snoc]
    simp only [gcRefuse, gcSetPhase, gcSetConn]
    by_cases hd : d = c
    · subst hd; simp only [if_true]; exact ⟨rfl, h.2⟩
    · rw [if_neg hd, if_neg (fun e => hd e.symm)]; exact h

theorem aux_gc_go {x : GreetXml} {s t : GreetCache x.Doc} {past evs : List GcEvent} {c : Nat} (hi : aux_gc_inv x s past)
    (h : gcGo x s c = some (t, evs)) : aux_gc_inv x t (past ++ evs) ∧ (evs = [] ∨ ∃ e, evs = [e] ∧ gcRight x past e) := by
  have hc := hi.phase c
  unfold gcGo at h
  cases hp : s.phase c with
  | idle => rw [hp] at h; cases h
  | looked body hit =>
    rw [hp] at h hc
    obtain ⟨hh, hz, hf⟩ := hc
    -- the phases of the others do not depend on the mutex
    have others : ∀ d, d ≠ c → ∀ (o : Option Nat), aux_gc_phase x { s with holder := o } d (s.phase d) := by
      intro d hd o
      have h := hi.phase d
      cases hq : s.phase d with
      | idle => trivial
      | looked b o => rw [hq] at h; exact absurd (Option.some.inj (h.1.symm.trans hh)) hd
      | parsed b o => rw [hq] at h; exact absurd (Option.some.inj (h.1.symm.trans hh)) hd
      | found b o => rw [hq] at h; exact h
    cases hit with
    | none =>
      dsimp only at h
      cases hx : x.parse body with
      | none =>
        rw [hx] at h
        simp only [Option.some.injEq] at h
        have ht : t = (gcRefuse s c body).1 := by rw [h]
        have he : evs = [.refused c body] := by rw [← (Prod.mk.inj h).2]
        rw [ht, he]
        exact ⟨aux_gc_refuse hi c body hh, .inr ⟨_, rfl, by simp [gcRight, said, hx]⟩⟩
      | some doc =>
        rw [hx] at h
        simp only [Option.some.injEq, Prod.mk.injEq] at h
        obtain ⟨rfl, rfl⟩ := h
        refine ⟨?_, .inl rfl⟩
        rw [List.append_nil]
        refine ⟨hi.table, ?_, hi.conn⟩
        intro d
        simp only [gcSetPhase]
        by_cases hd : d = c
        · subst hd; simp only [if_true]; exact ⟨hh, hz, hf.symm, hx⟩
        · simp only [hd, if_false]; exact hi.phase d
    | some b =>
      simp only [Option.some.injEq, Prod.mk.injEq] at h
      obtain ⟨rfl, rfl⟩ := h
      refine ⟨?_, .inl rfl⟩
      rw [List.append_nil]
      refine ⟨hi.table, ?_, hi.conn⟩
      intro d
      simp only [gcSetPhase]
      by_cases hd : d = c
      · subst hd; simp only [if_true]; exact hi.table _ _ hf.symm
      · simp only [hd, if_false]; exact others d hd none
  | parsed body doc =>
    rw [hp] at h hc
    obtain ⟨hh, hz, hf, hx⟩ := hc
    dsimp only at h
    by_cases hv : x.valid doc = true
    · rw [if_pos hv] at h
      simp only [Option.some.injEq, Prod.mk.injEq] at h
      obtain ⟨rfl, rfl⟩ := h
      refine ⟨?_, .inl rfl⟩
      rw [List.append_nil]
      have hs : said x body = some (x.advert doc) := by simp [said, hx, hv]
      have hnew : aux_gc_good x (s.blocks ++ [some (x.advert doc)]) s.blocks.length body := ⟨_, hs, by simp⟩
      have hfil : s.table.filter (fun e => e.1 ≠ body) = s.table := by
        rw [List.filter_eq_self]
        intro e he
        simp only [ne_eq, decide_not, Bool.not_eq_eq_eq_not, Bool.not_true, decide_eq_false_iff_not]
        intro hk
        clear hi hnew
        revert hf he
        generalize s.table = l
        intro hf he
        induction l with
        | nil => cases he
        | cons p l ih =>
          obtain ⟨k, b⟩ := p
          simp only [gcFind] at hf
          by_cases hkb : k = body
          · rw [if_pos hkb] at hf; cases hf
          · rw [if_neg hkb] at hf
            rcases List.mem_cons.mp he with he | he
            · subst he; exact hkb hk
            · exact ih hf he
      simp only [gcInsert, aux_gc_cstr body hz, hf, hfil]
      refine ⟨?_, ?_, ?_⟩
      · intro k b hk
        simp only [gcSetPhase, gcFind] at hk ⊢
        by_cases hkb : body = k
        · rw [if_pos hkb] at hk
          subst hkb
          cases hk
          exact hnew
        · rw [if_neg hkb] at hk
          exact aux_gc_good_append _ (hi.table k b hk)
      · intro d
        simp only [gcSetPhase]
        by_cases hd : d = c
        · subst hd; simp only [if_true]; exact hnew
        · simp only [hd, if_false]
          have h := hi.phase d
          cases hq : s.phase d with
          | idle => trivial
          | looked b o => rw [hq] at h; exact absurd (Option.some.inj (h.1.symm.trans hh)) hd
          | parsed b o => rw [hq] at h; exact absurd (Option.some.inj (h.1.symm.trans hh)) hd
          | found b o => rw [hq] at h; exact aux_gc_good_append _ h
      · intro d
        have h := hi.conn d
        refine ⟨h.1, ?_⟩
        have h2 := h.2
        cases hl : lastGreeting d past with
        | none => rw [hl] at h2; exact h2
        | some g =>
          rw [hl] at h2
          obtain ⟨b, hb, hg⟩ := h2
          exact ⟨b, hb, aux_gc_good_append _ hg⟩
    · rw [if_neg hv] at h
      simp only [Option.some.injEq] at h
      have ht : t = (gcRefuse s c body).1 := by rw [h]
      have he : evs = [.refused c body] := by rw [← (Prod.mk.inj h).2]
      rw [ht, he]
      exact ⟨aux_gc_refuse hi c body hh, .inr ⟨_, rfl, by simp [gcRight, said, hx, hv]⟩⟩
  | found body b =>
    rw [hp] at h hc
    simp only [Option.some.injEq, Prod.mk.injEq] at h
    obtain ⟨rfl, rfl⟩ := h
    obtain ⟨a, ha, hb⟩ := hc
    refine ⟨⟨hi.table, ?_, ?_⟩, .inr ⟨_, rfl, by simp [gcRight, ha]⟩⟩
    · intro d
      simp only [gcSetPhase, gcSetConn]
      by_cases hd : d = c
      · simp [hd, aux_gc_phase]
      · simp only [hd, if_false]; exact hi.phase d
    · intro d
      have h := hi.conn d
      rw [aux_gc_up_snoc, aux_gc_last_snoc]
      simp only [gcSetPhase, gcSetConn]
      by_cases hd : d = c
      · subst hd; simp only [if_true]; exact ⟨h.1, b, rfl, a, ha, hb⟩
      · rw [if_neg hd, if_neg (fun e => hd e.symm)]; exact h

theorem aux_gc_step {x : GreetXml} {s t : GreetCache x.Doc} {past evs : List GcEvent} {op : GcOp} (hi : aux_gc_inv x s past)
    (hz : ∀ c body, op = .lookup c body → NUL ∉ body)
    (h : gcStep x s op = some (t, evs)) : aux_gc_inv x t (past ++ evs) ∧ (evs = [] ∨ ∃ e, evs = [e] ∧ gcRight x past e) := by
  cases op with
  | connect c =>
    simp only [gcStep, Option.some.injEq, Prod.mk.injEq] at h
    obtain ⟨rfl, rfl⟩ := h
    refine ⟨⟨hi.table, hi.phase, ?_⟩, .inr ⟨_, rfl, trivial⟩⟩
    intro d
    have h := hi.conn d
    rw [aux_gc_up_snoc, aux_gc_last_snoc]
    simp only [gcSetConn]
    by_cases hd : d = c
    · subst hd; simp only [if_true]; exact ⟨rfl, h.2⟩
    · rw [if_neg hd, if_neg (fun e => hd e.symm)]; exact h
  | shut c =>
    simp only [gcStep, Option.some.injEq, Prod.mk.injEq] at h
    obtain ⟨rfl, rfl⟩ := h
    refine ⟨⟨hi.table, hi.phase, ?_⟩, .inr ⟨_, rfl, trivial⟩⟩
    intro d
    have h := hi.conn d
    rw [aux_gc_up_snoc, aux_gc_last_snoc]
    simp only [gcSetConn]
    by_cases hd : d = c
    · subst hd; simp only [if_true]; exact ⟨rfl, h.2⟩
    · rw [if_neg hd, if_neg (fun e => hd e.symm)]; exact h
  | lookup c body =>
    have hb := hz c body rfl
    simp only [gcStep] at h
    cases hh : s.holder with
    | some d => rw [hh] at h; cases h
    | none =>
      cases hp : s.phase c with
      | looked b o => rw [hh, hp] at h; cases h
      | parsed b o => rw [hh, hp] at h; cases h
      | found b o => rw [hh, hp] at h; cases h
      | idle =>
        rw [hh, hp] at h
        simp only [Option.some.injEq, Prod.mk.injEq] at h
        obtain ⟨rfl, rfl⟩ := h
        refine ⟨?_, .inl rfl⟩
        rw [List.append_nil]
        refine ⟨hi.table, ?_, hi.conn⟩
        intro d
        simp only [gcSetPhase]
        by_cases hd : d = c
        · subst hd; simp only [if_true]; exact ⟨rfl, hb, by rw [aux_gc_cstr body hb]⟩
        · simp only [hd, if_false]
          have h := hi.phase d
          cases hq : s.phase d with
          | idle => trivial
          | looked b o => rw [hq] at h; cases hh.symm.trans h.1
          | parsed b o => rw [hq] at h; cases hh.symm.trans h.1
          | found b o => rw [hq] at h; exact h
  | go c => exact aux_gc_go hi h
  | features c =>
    simp only [gcStep, Option.some.injEq, Prod.mk.injEq] at h
    obtain ⟨rfl, rfl⟩ := h
    rw [aux_gc_read hi, (hi.conn c).1]
    cases hu : gcUp c past <;>
    exact ⟨aux_gc_quiet hi _ (fun d => by rw [aux_gc_up_snoc]; rfl) (fun d => by rw [aux_gc_last_snoc]; rfl),
      .inr ⟨_, rfl, by simp [gcRight, hu]⟩⟩
  | localize c =>
    simp only [gcStep, Option.some.injEq, Prod.mk.injEq] at h
    obtain ⟨rfl, rfl⟩ := h
    rw [aux_gc_read hi, (hi.conn c).1]
    cases hu : gcUp c past <;>
    exact ⟨aux_gc_quiet hi _ (fun d => by rw [aux_gc_up_snoc]; rfl) (fun d => by rw [aux_gc_last_snoc]; rfl),
      .inr ⟨_, rfl, by simp [gcRight, hu]⟩⟩
  | profiles c filtered =>
    simp only [gcStep, Option.some.injEq, Prod.mk.injEq] at h
    obtain ⟨rfl, rfl⟩ := h
    rw [aux_gc_read hi, (hi.conn c).1]
    cases hu : gcUp c past <;>
    exact ⟨aux_gc_quiet hi _ (fun d => by rw [aux_gc_up_snoc]; rfl) (fun d => by rw [aux_gc_last_snoc]; rfl),
      .inr ⟨_, rfl, by simp [gcRight, hu]⟩⟩
  | supported c uri =>
    simp only [gcStep, Option.some.injEq, Prod.mk.injEq] at h
    obtain ⟨rfl, rfl⟩ := h
    rw [aux_gc_read hi, (hi.conn c).1]
    cases hu : gcUp c past <;>
    refine ⟨aux_gc_quiet hi _ (fun d => by rw [aux_gc_up_snoc]; rfl) (fun d => by rw [aux_gc_last_snoc]; rfl), .inr ⟨_, rfl, ?_⟩⟩
    · simp [gcRight, hu]
    · cases hs : peerSaid x c past <;> simp [gcRight, hu, hs]

theorem aux_gc_run {x : GreetXml} (ops : List GcOp) : ∀ (s : GreetCache x.Doc) (past : List GcEvent), aux_gc_inv x s past →
    noZero ops → aux_gc_inv x (gcRun x s ops).1 (past ++ (gcRun x s ops).2) ∧
      ∀ pre e rest, (gcRun x s ops).2 = pre ++ e :: rest → gcRight x (past ++ pre) e := by
  induction ops with
  | nil =>
    intro s past hi _
    refine ⟨by simpa [gcRun] using hi, ?_⟩
    intro pre e rest h
    simp [gcRun] at h
  | cons op ops ih =>
    intro s past hi hz
    have hz' : noZero ops := fun c b hm => hz c b (List.mem_cons_of_mem _ hm)
    simp only [gcRun]
    cases hs : gcStep x s op with
    | none => exact ih s past hi hz'
    | some r =>
      obtain ⟨t, evs⟩ := r
      dsimp only
      obtain ⟨hi', hr⟩ := aux_gc_step hi (fun c b he => hz c b (by rw [he]; exact List.mem_cons_self)) hs
      obtain ⟨h1, h2⟩ := ih t _ hi' hz'
      refine ⟨by rw [← List.append_assoc]; exact h1, ?_⟩
      intro pre e rest h
      rcases hr with rfl | ⟨ev, rfl, hr⟩
      · rw [List.append_nil] at h2; exact h2 pre e rest h
      · cases pre with
        | nil =>
          simp only [List.cons_append, List.nil_append, List.cons.injEq] at h
          rw [← h.1, List.append_nil]; exact hr
        | cons p pre =>
          simp only [List.cons_append, List.nil_append, List.cons.injEq] at h
          have := h2 pre e rest h.2
          rw [← h.1]
          simpa using this

/-- The full property: whatever greetings the peers of the connections of a context send, and however they are handled at the same
time, they are accepted exactly if they are valid, and each connection reports what its own peer said. -/
def C95_statement : Prop := ∀ (x : GreetXml) (ops : List GcOp), gcAllRight x (gcRun x .init ops).2

/-- It holds for greetings without zero octets. -/
theorem C95_said_partial (x : GreetXml) (ops : List GcOp) (hz : noZero ops) : gcAllRight x (gcRun x .init ops).2 := by
  intro past e rest h
  have := (aux_gc_run ops _ [] (aux_gc_init x) hz).2 past e rest h
  simpa using this

/-- Steps left until the greetings are done with. -/
def aux_gc_left {Doc : Type} : GcPhase Doc → Nat
  | .idle => 0
  | .looked _ _ => 3
  | .parsed _ _ => 2
  | .found _ _ => 1

def aux_gc_body {Doc : Type} : GcPhase Doc → Option (List Byte)
  | .idle => none
  | .looked b _ => some b
  | .parsed b _ => some b
  | .found b _ => some b

/-- The others do not change where a thread is. -/
theorem aux_gc_other {x : GreetXml} {s t : GreetCache x.Doc} {evs : List GcEvent} {op : GcOp} {c : Nat} {body : List Byte}
    (hb : aux_gc_body (s.phase c) = some body) (hg : op ≠ .go c) (h : gcStep x s op = some (t, evs)) : t.phase c = s.phase c := by
  cases op with
  | lookup d g =>
    simp only [gcStep] at h
    cases hh : s.holder <;> cases hp : s.phase d <;> rw [hh, hp] at h <;> cases h
    have : c ≠ d := fun e => by rw [e, hp] at hb; cases hb
    simp [gcSetPhase, this]
  | go d =>
    have : c ≠ d := fun e => hg (by rw [e])
    simp only [gcStep, gcGo] at h
    cases hp : s.phase d with
    | idle => rw [hp] at h; cases h
    | looked g hit =>
      cases hit with
      | some b => rw [hp] at h; cases h; simp [gcSetPhase, this]
      | none =>
        rw [hp] at h
        cases hx : x.parse g <;> simp only [hx] at h <;> cases h <;> simp [gcSetPhase, gcRefuse, gcSetConn, this]
    | parsed g doc =>
      rw [hp] at h
      dsimp only at h
      by_cases hv : x.valid doc = true
      · rw [if_pos hv] at h; cases h; simp [gcSetPhase, gcInsert, this]
      · rw [if_neg hv] at h; cases h; simp [gcSetPhase, gcRefuse, gcSetConn, this]
    | found g b => rw [hp] at h; cases h; simp [gcSetPhase, gcSetConn, this]
  | _ => simp only [gcStep, Option.some.injEq, Prod.mk.injEq] at h; obtain ⟨rfl, _⟩ := h; rfl

/-- A step of the thread itself is always possible, and gets on. -/
theorem aux_gc_self {x : GreetXml} {s : GreetCache x.Doc} {c : Nat} {body : List Byte} (hb : aux_gc_body (s.phase c) = some body) :
    ∃ t evs, gcStep x s (.go c) = some (t, evs) ∧
      ((evs = [.accepted c body] ∨ evs = [.refused c body]) ∨
        aux_gc_body (t.phase c) = some body ∧ aux_gc_left (t.phase c) + 1 ≤ aux_gc_left (s.phase c)) := by
  simp only [gcStep, gcGo]
  cases hp : s.phase c with
  | idle => rw [hp] at hb; cases hb
  | looked g hit =>
    rw [hp] at hb; cases hb
    cases hit with
    | some b => exact ⟨_, _, rfl, .inr (by simp [gcSetPhase, aux_gc_body, aux_gc_left])⟩
    | none =>
      dsimp only
      cases hx : x.parse body with
      | none => exact ⟨_, _, rfl, .inl (.inr rfl)⟩
      | some d => exact ⟨_, _, rfl, .inr (by simp [gcSetPhase, aux_gc_body, aux_gc_left])⟩
  | parsed g doc =>
    rw [hp] at hb; cases hb
    dsimp only
    by_cases hv : x.valid doc = true
    · rw [if_pos hv]; exact ⟨_, _, rfl, .inr (by simp [gcSetPhase, aux_gc_body, aux_gc_left])⟩
    · rw [if_neg hv]; exact ⟨_, _, rfl, .inl (.inr rfl)⟩
  | found g b => rw [hp] at hb; cases hb; exact ⟨_, _, rfl, .inl (.inl rfl)⟩

/-- How many of the steps are steps of the thread that handles the greetings of `c`. -/
theorem aux_gc_done (x : GreetXml) (c : Nat) (body : List Byte) (ops : List GcOp) : ∀ (s : GreetCache x.Doc),
    aux_gc_body (s.phase c) = some body →
    aux_gc_left (s.phase c) ≤ ops.countP (fun op => match op with | .go d => d = c | _ => false) →
    .accepted c body ∈ (gcRun x s ops).2 ∨ .refused c body ∈ (gcRun x s ops).2 := by
  induction ops with
  | nil =>
    intro s hb hn
    cases hp : s.phase c <;> rw [hp] at hb hn <;> simp [aux_gc_left, aux_gc_body] at hn hb
  | cons op ops ih =>
    intro s hb hn
    by_cases hg : op = .go c
    · subst hg
      obtain ⟨t, evs, hs, hr⟩ := aux_gc_self (x := x) hb
      simp only [gcRun, hs]
      rcases hr with hr | ⟨h1, h2⟩
      · rcases hr with rfl | rfl
        · exact .inl (by simp)
        · exact .inr (by simp)
      · have : aux_gc_left (t.phase c) ≤ ops.countP (fun op => match op with | .go d => d = c | _ => false) := by
          rw [List.countP_cons_of_pos (by simp)] at hn; omega
        rcases ih t h1 this with h | h
        · exact .inl (List.mem_append_right _ h)
        · exact .inr (List.mem_append_right _ h)
    · have hn' : aux_gc_left (s.phase c) ≤ ops.countP (fun op => match op with | .go d => d = c | _ => false) := by
        rw [List.countP_cons_of_neg] at hn
        · exact hn
        · cases op <;> simp_all
      simp only [gcRun]
      cases hs : gcStep x s op with
      | none => exact ih s hb hn'
      | some r =>
        obtain ⟨t, evs⟩ := r
        have hk := aux_gc_other hb hg hs
        rcases ih t (by rw [hk]; exact hb) (by rw [hk]; exact hn') with h | h
        · exact .inl (List.mem_append_right _ h)
        · exact .inr (List.mem_append_right _ h)

/-- Greetings that were looked up are accepted or refused after at most three steps of their thread, whatever the other threads and
the users do in between. -/
theorem C95_done (x : GreetXml) (ops more : List GcOp) (c : Nat) (body : List Byte) (t : GreetCache x.Doc)
    (h : gcStep x (gcRun x .init ops).1 (.lookup c body) = some (t, []))
    (hm : 3 ≤ more.countP (fun op => match op with | .go d => d = c | _ => false)) :
    .accepted c body ∈ (gcRun x t more).2 ∨ .refused c body ∈ (gcRun x t more).2 := by
  generalize (gcRun x .init ops).1 = s at h
  simp only [gcStep] at h
  cases hh : s.holder <;> cases hp : s.phase c <;> rw [hh, hp] at h <;> cases h
  refine aux_gc_done x c body more _ ?_ ?_
  · simp [gcSetPhase, aux_gc_body]
  · simpa [gcSetPhase, aux_gc_left] using hm

theorem aux_gc_holder {x : GreetXml} (ops : List GcOp) : ∀ (s : GreetCache x.Doc),
    (∀ c, s.holder = some c ↔ 2 ≤ aux_gc_left (s.phase c)) →
    ∀ c, (gcRun x s ops).1.holder = some c ↔ 2 ≤ aux_gc_left ((gcRun x s ops).1.phase c) := by
  induction ops with
  | nil => exact fun s h => h
  | cons op ops ih =>
    intro s h
    simp only [gcRun]
    cases hs : gcStep x s op with
    | none => exact ih s h
    | some r =>
      obtain ⟨t, evs⟩ := r
      refine ih t ?_
      clear ih
      cases op with
      | lookup d g =>
        simp only [gcStep] at hs
        cases hh : s.holder <;> cases hp : s.phase d <;> rw [hh, hp] at hs <;> cases hs
        intro c
        have hc := h c
        rw [hh] at hc
        by_cases hd : c = d
        · subst hd; simp [gcSetPhase, aux_gc_left]
        · simp only [gcSetPhase, hd, if_false, Option.some.injEq]
          constructor
          · intro e; exact absurd e.symm hd
          · intro e; cases hc.mpr e
      | go d =>
        have hd := h d
        -- the phases of the others when `d` has the mutex
        have others : s.holder = some d → ∀ c, c ≠ d → ¬ 2 ≤ aux_gc_left (s.phase c) := by
          intro e c hc h2
          have := (h c).mpr h2
          rw [e] at this
          exact hc (Option.some.inj this).symm
        simp only [gcStep, gcGo] at hs
        cases hp : s.phase d with
        | idle => rw [hp] at hs; cases hs
        | looked g hit =>
          rw [hp] at hd
          have hh := hd.mpr (by simp [aux_gc_left])
          cases hit with
          | some b =>
            rw [hp] at hs; cases hs
            intro c
            by_cases hc : c = d
            · subst hc; simp [gcSetPhase, aux_gc_left]
            · simpa [gcSetPhase, hc] using others hh c hc
          | none =>
            rw [hp] at hs
            cases hx : x.parse g <;> simp only [hx] at hs <;> cases hs <;> intro c <;> by_cases hc : c = d
            · subst hc; simp [gcSetPhase, gcRefuse, gcSetConn, aux_gc_left]
            · simpa [gcSetPhase, gcRefuse, gcSetConn, hc] using others hh c hc
            · subst hc; simp [gcSetPhase, aux_gc_left, hh]
            · simpa [gcSetPhase, hc] using h c
        | parsed g doc =>
          rw [hp] at hd
          have hh := hd.mpr (by simp [aux_gc_left])
          rw [hp] at hs
          dsimp only at hs
          by_cases hv : x.valid doc = true
          · rw [if_pos hv] at hs; cases hs
            intro c
            by_cases hc : c = d
            · subst hc; simp [gcSetPhase, gcInsert, aux_gc_left]
            · simpa [gcSetPhase, gcInsert, hc] using others hh c hc
          · rw [if_neg hv] at hs; cases hs
            intro c
            by_cases hc : c = d
            · subst hc; simp [gcSetPhase, gcRefuse, gcSetConn, aux_gc_left]
            · simpa [gcSetPhase, gcRefuse, gcSetConn, hc] using others hh c hc
        | found g b =>
          rw [hp] at hd hs
          cases hs
          intro c
          by_cases hc : c = d
          · subst hc
            simpa [gcSetPhase, gcSetConn, aux_gc_left] using hd
          · simpa [gcSetPhase, gcSetConn, hc] using h c
      | _ => simp only [gcStep, Option.some.injEq, Prod.mk.injEq] at hs; obtain ⟨rfl, _⟩ := hs; exact h

/-- Nobody waits for ever to look up greetings: at any time either greetings can be looked up, or there is a thread that takes two
steps, both possible, after which they can. -/
theorem C95_mutex (x : GreetXml) (ops : List GcOp) :
    (gcRun x .init ops).1.holder = none ∨
    ∃ c, (gcRun x (gcRun x .init ops).1 [.go c, .go c]).1.holder = none := by
  have h := aux_gc_holder (x := x) ops .init (fun c => by simp [GreetCache.init, aux_gc_left])
  revert h
  generalize (gcRun x .init ops).1 = s
  intro h
  cases hh : s.holder with
  | none => exact .inl rfl
  | some c =>
    refine .inr ⟨c, ?_⟩
    have hc := (h c).mp hh
    cases hp : s.phase c with
    | idle => rw [hp] at hc; simp [aux_gc_left] at hc
    | found g b => rw [hp] at hc; simp [aux_gc_left] at hc
    | looked g hit =>
      cases hit with
      | some b => simp [gcRun, gcStep, gcGo, gcSetPhase, gcSetConn, hp]
      | none =>
        cases hx : x.parse g with
        | none => simp [gcRun, gcStep, gcGo, gcSetPhase, gcSetConn, gcRefuse, hx, hp]
        | some d => cases hv : x.valid d <;> simp [gcRun, gcStep, gcGo, gcSetPhase, gcSetConn, gcRefuse, gcInsert, hx, hv, hp]
    | parsed g d =>
      cases hv : x.valid d <;> simp [gcRun, gcStep, gcGo, gcSetPhase, gcSetConn, gcRefuse, gcInsert, hv, hp]

/-- Zero octets: greetings that begin with the valid greetings of another peer, followed by a zero octet and anything else, are
accepted when the former are in the cache, and refused or understood as the whole text says when they are not. -/
theorem C95_zero (x : GreetXml) (b rest : List Byte) (a : Advert) (hb : NUL ∉ b) (ha : said x b = some a) :
    (gcRun x .init [.connect 0, .lookup 0 b, .go 0, .go 0, .go 0, .connect 1, .lookup 1 (b ++ NUL :: rest), .go 1, .go 1,
      .features 1, .profiles 1 (fun _ => false)]).2 =
    [.connected 0, .accepted 0 b, .connected 1, .accepted 1 (b ++ NUL :: rest), .features 1 a.features,
      .profiles 1 (fun _ => false) (some a.profiles)] := by
  unfold said at ha
  cases hx : x.parse b with
  | none => rw [hx] at ha; cases ha
  | some d =>
    rw [hx] at ha
    dsimp only at ha
    cases hv : x.valid d with
    | false => rw [hv] at ha; cases ha
    | true =>
      rw [hv] at ha
      simp only [if_true, Option.some.injEq] at ha
      subst ha
      simp [gcRun, gcStep, gcGo, gcSetPhase, gcSetConn, gcInsert, gcFind, gcRead, GreetCache.init, hx, hv, aux_gc_cstr _ hb,
        aux_gc_cstr_zero _ _ hb]

/-- The same greetings as the first ones a context receives are judged as a whole. -/
theorem C95_zero_first (x : GreetXml) (body : List Byte) (h : said x body = none) :
    (gcRun x .init [.connect 1, .lookup 1 body, .go 1, .go 1]).2 = [.connected 1, .refused 1 body] := by
  unfold said at h
  cases hx : x.parse body with
  | none => simp [gcRun, gcStep, gcGo, gcSetPhase, gcSetConn, gcRefuse, gcFind, GreetCache.init, hx]
  | some d =>
    rw [hx] at h
    cases hv : x.valid d with
    | true => simp [hv] at h
    | false => simp [gcRun, gcStep, gcGo, gcSetPhase, gcSetConn, gcRefuse, gcFind, GreetCache.init, hx, hv]

/-- A library that knows the greetings `<g/>` only. -/
def aux_gc_xml : GreetXml where
  Doc := Unit
  parse b := if b = lit "<g/>" then some () else none
  valid _ := true
  advert _ := ⟨some (lit "f"), none, [lit "p", lit "q"]⟩

theorem C95_statement_false : ¬ C95_statement := by
  intro h
  have h1 := C95_zero aux_gc_xml (lit "<g/>") [1] _ (by decide) rfl
  have h2 := h aux_gc_xml [.connect 0, .lookup 0 (lit "<g/>"), .go 0, .go 0, .go 0, .connect 1,
    .lookup 1 (lit "<g/>" ++ NUL :: [1]), .go 1, .go 1, .features 1, .profiles 1 (fun _ => false)]
    [.connected 0, .accepted 0 (lit "<g/>"), .connected 1] _ _ h1
  simp only [gcRight] at h2
  revert h2
  decide

theorem aux_gc_find_insert {Doc : Type} (s : GreetCache Doc) (k key : List Byte) (a : Advert)
    (h : (gcFind k s.table).isSome) : (gcFind k (gcInsert s key a).table).isSome := by
  simp only [gcInsert, gcFind]
  by_cases hk : key = k
  · rw [if_pos hk]; rfl
  · rw [if_neg hk]
    revert h
    generalize s.table = l
    intro h
    induction l with
    | nil => exact h
    | cons p l ih =>
      obtain ⟨q, b⟩ := p
      simp only [gcFind] at h
      by_cases hq : q = k
      · subst hq
        have : decide (q ≠ key) = true := by simp; exact fun e => hk e.symm
        rw [List.filter_cons_of_pos (by exact this)]
        simp [gcFind]
      · rw [if_neg hq] at h
        by_cases hqk : q = key
        · rw [List.filter_cons_of_neg (by simp [hqk])]
          exact ih h
        · rw [List.filter_cons_of_pos (by simp [hqk])]
          simp only [gcFind, if_neg hq]
          exact ih h

theorem aux_gc_kept (x : GreetXml) (ops more : List GcOp) (k : List Byte) (h : (gcFind k (gcRun x .init ops).1.table).isSome) :
    (gcFind k (gcRun x (gcRun x .init ops).1 more).1.table).isSome := by
  revert h
  generalize (gcRun x .init ops).1 = s
  induction more generalizing s with
  | nil => exact id
  | cons op more ih =>
    intro h
    simp only [gcRun]
    cases hs : gcStep x s op with
    | none => exact ih s h
    | some r =>
      obtain ⟨t, evs⟩ := r
      refine ih t ?_
      cases op <;> simp only [gcStep, Option.some.injEq, Prod.mk.injEq] at hs
      case lookup c body =>
        cases hh : s.holder <;> cases hp : s.phase c <;> rw [hh, hp] at hs <;> cases hs
        exact h
      case go c =>
        unfold gcGo at hs
        cases hp : s.phase c with
        | idle => rw [hp] at hs; cases hs
        | looked body hit =>
          cases hit with
          | some b => rw [hp] at hs; cases hs; exact h
          | none =>
            rw [hp] at hs
            cases hx : x.parse body <;> simp only [hx] at hs <;> cases hs <;> exact h
        | parsed body doc =>
          rw [hp] at hs
          dsimp only at hs
          by_cases hv : x.valid doc = true
          · rw [if_pos hv] at hs; cases hs; exact aux_gc_find_insert s k (cstr body) (x.advert doc) h
          · rw [if_neg hv] at hs; cases hs; exact h
        | found body b => rw [hp] at hs; cases hs; exact h
      all_goals (obtain ⟨rfl, _⟩ := hs; exact h)

theorem aux_gc_find (k : List Byte) (l : List (List Byte × Nat)) : (gcFind k l).isSome ↔ k ∈ l.map (·.1) := by
  induction l with
  | nil => simp [gcFind]
  | cons e l ih =>
    obtain ⟨a, b⟩ := e
    simp only [gcFind, List.map_cons, List.mem_cons]
    by_cases h : a = k
    · simp [h]
    · rw [if_neg h, ih]
      simp [Ne.symm h]

/-- Nothing is ever dropped from the cache while the context lasts: peers can fill the memory with greetings that differ. -/
theorem C95_kept (x : GreetXml) (ops more : List GcOp) (k : List Byte) (h : k ∈ (gcRun x .init ops).1.table.map (·.1)) :
    k ∈ (gcRun x (gcRun x .init ops).1 more).1.table.map (·.1) :=
  (aux_gc_find _ _).1 (aux_gc_kept x ops more k ((aux_gc_find _ _).2 h))


/-- Two connections whose greetings arrive at the same time, one of them understood from the cache. -/
example : noZero [.connect 0, .connect 1, .lookup 0 (lit "<g/>"), .lookup 1 (lit "<g/>"), .go 0, .go 0, .lookup 1 (lit "<g/>"),
    .go 0, .go 1, .supported 0 (lit "q"), .go 1, .supported 1 (lit "r")] := by
  intro c body h
  simp only [List.mem_cons, GcOp.lookup.injEq, reduceCtorEq, List.not_mem_nil, or_false, false_or] at h
  rcases h with ⟨_, rfl⟩ | ⟨_, rfl⟩ | ⟨_, rfl⟩ <;> decide

example : (gcRun aux_gc_xml .init [.connect 0, .connect 1, .lookup 0 (lit "<g/>"), .lookup 1 (lit "<g/>"), .go 0, .go 0,
    .lookup 1 (lit "<g/>"), .go 0, .go 1, .supported 0 (lit "q"), .go 1, .supported 1 (lit "r"), .localize 1, .shut 0,
    .features 0, .features 1]).2 =
    [.connected 0, .connected 1, .accepted 0 (lit "<g/>"), .supported 0 (lit "q") true, .accepted 1 (lit "<g/>"),
      .supported 1 (lit "r") false, .localize 1 none, .shut 0, .features 0 none, .features 1 (some (lit "f"))] := by rfl

example : ∃ t, gcStep aux_gc_xml (gcRun aux_gc_xml .init [.connect 0]).1 (.lookup 0 (lit "<x/>")) = some (t, []) := ⟨_, rfl⟩

end Verif.Props
