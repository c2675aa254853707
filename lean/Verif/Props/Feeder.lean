import Verif.Spec.Feeder
import Verif.Proof.Flow
/-!
# C39 — the file feeder
-/
namespace Verif.Props
open Verif.Model Verif.Spec Verif.Proof

/-- What is left to send. -/
def aux_ff_left (f : FileFeeder) : List Byte := (if f.mimePending then [13, 10] else []) ++ f.rest

theorem aux_ff_content {f f' : FileFeeder} {n : Nat} {b : List Byte} (h : f.getContent n = some (b, f')) :
    b ++ aux_ff_left f' = aux_ff_left f ∧ b.length ≤ n ∧ (f.eof = false → f'.eof = true → aux_ff_left f' = []) ∧
    (f'.eof = false → b.length = n) := by
  simp only [FileFeeder.getContent, FileFeeder.read] at h
  split at h
  · rename_i hm
    split at h
    · simp at h
    · rename_i hn
      simp only [Option.some.injEq, Prod.mk.injEq] at h
      obtain ⟨rfl, rfl⟩ := h
      refine ⟨by simp [aux_ff_left, hm, CR, LF], by simp; omega, ?_, ?_⟩
      · intro he; simp [he, aux_ff_left]; omega
      · simp; omega
  · rename_i hm
    simp only [Option.some.injEq, Prod.mk.injEq] at h
    obtain ⟨rfl, rfl⟩ := h
    refine ⟨by simp [aux_ff_left, hm], by simp; omega, ?_, ?_⟩
    · intro he; simp [he, aux_ff_left, hm]; omega
    · simp; omega

theorem aux_ff_grant {w w' : SendWin} {a b : Nat} (h : w.grant a b = some w') : w'.lastSeq = w.lastSeq := by
  simp only [SendWin.grant] at h
  generalize (if w.remoteConsumed ≤ a then _ else _ : Int) = x at h
  split at h
  · simp only [Option.some.injEq] at h
    rw [← h]
  · simp at h

/-- One step: the frame, if any, carries what is next. -/
theorem aux_ff_step {c c' : FeedChan} {op : FeedOp} {fo : Option Frame} (h : c.step op = .ok c' fo) :
    carried fo.toList ++ aux_ff_left c'.feeder = aux_ff_left c.feeder ∧ c'.info = c.info ∧
    (∀ f ∈ fo, f.type = c.info.type ∧ f.channel = c.info.channel ∧ f.size = f.payload.length ∧
      f.seqno = c.win.lastSeq ∧ c'.win = c.win.advance f.payload.length) ∧
    (fo = none → c'.win.lastSeq = c.win.lastSeq) := by
  have emit : ∀ {c' fo}, c.emit = .ok c' fo →
      carried fo.toList ++ aux_ff_left c'.feeder = aux_ff_left c.feeder ∧ c'.info = c.info ∧
      (∀ f ∈ fo, f.type = c.info.type ∧ f.channel = c.info.channel ∧ f.size = f.payload.length ∧
        f.seqno = c.win.lastSeq ∧ c'.win = c.win.advance f.payload.length) ∧
      (fo = none → c'.win.lastSeq = c.win.lastSeq) := by
    intro c' fo h
    simp only [FeedChan.emit] at h
    split at h
    · simp only [FeedOut.ok.injEq] at h
      obtain ⟨rfl, rfl⟩ := h
      simp [carried]
    · split at h
      · simp at h
      · split at h
        · split at h
          · simp only [FeedOut.ok.injEq] at h
            obtain ⟨rfl, rfl⟩ := h
            simp [carried]
          · simp only [FeedOut.ok.injEq] at h
            obtain ⟨rfl, rfl⟩ := h
            simp [carried, FeedChan.frame]
        · split at h
          · simp at h
          · rename_i b f hc
            simp only [FeedOut.ok.injEq] at h
            obtain ⟨rfl, rfl⟩ := h
            simp [carried, FeedChan.frame, (aux_ff_content hc).1]
  cases op with
  | send m =>
    simp only [FeedChan.step, FeedOut.ok.injEq] at h
    obtain ⟨rfl, rfl⟩ := h
    simp [carried]
  | pause b =>
    simp only [FeedChan.step, FeedOut.ok.injEq] at h
    obtain ⟨rfl, rfl⟩ := h
    simp [carried]
  | round =>
    simp only [FeedChan.step] at h
    split at h
    · simp only [FeedOut.ok.injEq] at h
      obtain ⟨rfl, rfl⟩ := h
      simp [carried]
    · exact emit h
  | lateRound => exact emit h
  | seq a w =>
    simp only [FeedChan.step] at h
    split at h
    · simp at h
    · rename_i win hg
      simp only [FeedOut.ok.injEq] at h
      obtain ⟨rfl, rfl⟩ := h
      have hl := aux_ff_grant hg
      simp [carried, hl]
  | ownWindow s =>
    simp only [FeedChan.step, FeedOut.ok.injEq] at h
    obtain ⟨rfl, rfl⟩ := h
    simp [carried]

theorem aux_ff_carried_append (a b : List Frame) : carried (a ++ b) = carried a ++ carried b := by simp [carried]

theorem aux_ff_run (ops : List FeedOp) : ∀ (c : FeedChan) (S : Nat), c.win.lastSeq = S % 4294967296 →
    (∃ left, carried (c.run ops).2 ++ left = aux_ff_left c.feeder ∧
      ∀ d, (c.run ops).1 = some d → left = aux_ff_left d.feeder) ∧
    Contiguous S (c.run ops).2 ∧
    ∀ f ∈ (c.run ops).2, f.type = c.info.type ∧ f.channel = c.info.channel ∧ f.size = f.payload.length := by
  induction ops with
  | nil =>
    intro c S h
    refine ⟨⟨aux_ff_left c.feeder, by simp [FeedChan.run, carried], ?_⟩, trivial, by simp [FeedChan.run]⟩
    intro d hd
    simp only [FeedChan.run, Option.some.injEq] at hd
    rw [hd]
  | cons op ops ih =>
    intro c S hS
    cases hs : c.step op with
    | shutdown =>
      simp only [FeedChan.run, hs]
      exact ⟨⟨aux_ff_left c.feeder, by simp [carried], by simp⟩, trivial, by simp⟩
    | overrun =>
      simp only [FeedChan.run, hs]
      exact ⟨⟨aux_ff_left c.feeder, by simp [carried], by simp⟩, trivial, by simp⟩
    | ok c' fo =>
      obtain ⟨h1, h2, h3, h4⟩ := aux_ff_step hs
      simp only [FeedChan.run, hs]
      cases fo with
      | none =>
        obtain ⟨⟨left, i1, i2⟩, i3, i4⟩ := ih c' S ((h4 rfl).trans hS)
        simp only [Option.toList, List.nil_append]
        refine ⟨⟨left, ?_, i2⟩, i3, ?_⟩
        · rw [i1]; simpa [carried] using h1
        · rw [h2] at i4; exact i4
      | some f =>
        obtain ⟨k1, k2, k3, k4, k5⟩ := h3 f rfl
        have hS' : c'.win.lastSeq = (S + f.payload.length) % 4294967296 := by
          rw [k5]
          simp only [SendWin.advance, hS]
          unfold u32
          omega
        obtain ⟨⟨left, i1, i2⟩, i3, i4⟩ := ih c' _ hS'
        simp only [Option.toList, List.singleton_append]
        refine ⟨⟨left, ?_, i2⟩, ⟨k4.trans hS, i3⟩, ?_⟩
        · have : carried (f :: (c'.run ops).2) = carried [f] ++ carried (c'.run ops).2 := by simp [carried]
          rw [this, List.append_assoc, i1]
          exact h1
        · intro g hg
          simp only [List.mem_cons] at hg
          rcases hg with rfl | hg
          · exact ⟨k1, k2, k3⟩
          · rw [h2] at i4; exact i4 g hg

theorem aux_ff_start (win : SendWin) (info : FeedMeta) (content : List Byte) (addMime : Bool) :
    aux_ff_left (FeedChan.start win info content addMime).feeder = fileContent content addMime := rfl

/-- **C39** (content): for any file, any window of the peer and its evolution, any pause and resumption, the frames
carry, in order, the first octets of the MIME separator followed by the file; their sequence numbers are
contiguous and their sizes are those of their content. -/
theorem C39_content (win : SendWin) (S : Nat) (hS : win.lastSeq = S % 4294967296) (info : FeedMeta)
    (content : List Byte) (addMime : Bool) (ops : List FeedOp) :
    let fs := ((FeedChan.start win info content addMime).run ops).2
    (∃ left, carried fs ++ left = fileContent content addMime) ∧ Contiguous S fs ∧
    ∀ f ∈ fs, f.type = info.type ∧ f.channel = info.channel ∧ f.size = f.payload.length := by
  intro fs
  obtain ⟨⟨left, h1, _⟩, h2, h3⟩ := aux_ff_run ops (FeedChan.start win info content addMime) S hS
  exact ⟨⟨left, by rw [← aux_ff_start win info]; exact h1⟩, h2, h3⟩

/-- A file of five octets through a window that lets pass three, then more; one pause, one resumption. -/
def sampleFeed : List FeedOp := [.send 7, .ownWindow 3, .round, .pause false, .round, .send 8, .ownWindow 4096, .round]

example : SendWin.init.lastSeq = 0 % 4294967296 ∧
    ((FeedChan.start SendWin.init ⟨.msg, 1, 0⟩ [1, 2, 3, 4, 5] true).run sampleFeed).2 =
    [⟨.msg, 1, 7, true, 0, 3, 0, [13, 10, 1]⟩, ⟨.msg, 1, 7, false, 3, 4, 0, [2, 3, 4, 5]⟩] := by decide +kernel

/-- State of a transmission that was started once and never paused. -/
structure aux_ff_Live (m : Int) (c : FeedChan) : Prop where
  pending : c.pending = [m] ∨ (c.pending = [] ∧ c.feeder.eof = true)
  paused : c.paused = false
  eof : c.feeder.eof = true → aux_ff_left c.feeder = []
  open_ : c.pending = [m] → c.feeder.eof = false

theorem aux_ff_live_step {m : Int} {c c' : FeedChan} {op : FeedOp} {fo : Option Frame} (h : aux_ff_Live m c)
    (hs : c.step op = .ok c' fo) (h1 : ∀ m, op ≠ .send m) (h2 : ∀ b, op ≠ .pause b) :
    aux_ff_Live m c' ∧ (c.pending = [] → fo = none) ∧
    ∀ f ∈ fo, f.msgno = m ∧ f.more = !c'.pending.isEmpty := by
  have emit : ∀ {c' fo}, c.emit = .ok c' fo → aux_ff_Live m c' ∧ (c.pending = [] → fo = none) ∧
      ∀ f ∈ fo, f.msgno = m ∧ f.more = !c'.pending.isEmpty := by
    intro c' fo hs
    simp only [FeedChan.emit] at hs
    split at hs
    · simp only [FeedOut.ok.injEq] at hs
      obtain ⟨rfl, rfl⟩ := hs
      exact ⟨h, by simp, by simp⟩
    · rename_i m' ms hp
      have hm : m' = m ∧ ms = [] := by
        rcases h.pending with hq | hq
        · rw [hq] at hp
          simp at hp
          exact ⟨hp.1.symm, hp.2⟩
        · rw [hq.1] at hp; simp at hp
      obtain ⟨rfl, rfl⟩ := hm
      split at hs
      · simp at hs
      · split at hs
        · rename_i hpa; simp [h.paused] at hpa
        · split at hs
          · simp at hs
          · rename_i b f hc
            simp only [FeedOut.ok.injEq] at hs
            obtain ⟨rfl, rfl⟩ := hs
            have he := h.open_ hp
            have hcon := aux_ff_content hc
            refine ⟨⟨?_, h.paused, fun hf => hcon.2.2.1 he hf, ?_⟩, by simp [hp], ?_⟩
            · cases hf : f.eof <;> simp
            · cases hf : f.eof <;> simp
            · intro g hg
              simp only [Option.mem_def, Option.some.injEq] at hg
              subst hg
              cases hf : f.eof <;> simp [FeedChan.frame, hf]
  cases op with
  | send x => exact absurd rfl (h1 x)
  | pause b => exact absurd rfl (h2 b)
  | round =>
    simp only [FeedChan.step] at hs
    split at hs
    · simp only [FeedOut.ok.injEq] at hs
      obtain ⟨rfl, rfl⟩ := hs
      exact ⟨h, by simp, by simp⟩
    · exact emit hs
  | lateRound => exact emit hs
  | seq a w =>
    simp only [FeedChan.step] at hs
    split at hs
    · simp at hs
    · simp only [FeedOut.ok.injEq] at hs
      obtain ⟨rfl, rfl⟩ := hs
      exact ⟨⟨h.pending, h.paused, h.eof, h.open_⟩, by simp, by simp⟩
  | ownWindow s =>
    simp only [FeedChan.step, FeedOut.ok.injEq] at hs
    obtain ⟨rfl, rfl⟩ := hs
    exact ⟨⟨h.pending, h.paused, h.eof, h.open_⟩, by simp, by simp⟩

theorem aux_ff_done (m : Int) (ops : List FeedOp) : ∀ (c : FeedChan), aux_ff_Live m c → c.pending = [] →
    (∀ op ∈ ops, (∀ m, op ≠ .send m) ∧ (∀ b, op ≠ .pause b)) → (c.run ops).2 = [] := by
  induction ops with
  | nil => intro c _ _ _; rfl
  | cons op ops ih =>
    intro c h hp ho
    cases hs : c.step op with
    | shutdown => simp [FeedChan.run, hs]
    | overrun => simp [FeedChan.run, hs]
    | ok c' fo =>
      obtain ⟨k1, k2, _⟩ := aux_ff_live_step h hs (ho op List.mem_cons_self).1 (ho op List.mem_cons_self).2
      have hfo := k2 hp
      subst hfo
      have hp' : c'.pending = [] := by
        cases op with
        | send x => exact absurd rfl ((ho _ List.mem_cons_self).1 x)
        | pause b => exact absurd rfl ((ho _ List.mem_cons_self).2 b)
        | round =>
          simp only [FeedChan.step, FeedChan.emit, hp] at hs
          split at hs <;> (simp only [FeedOut.ok.injEq] at hs; rw [← hs.1]; exact hp)
        | lateRound =>
          simp only [FeedChan.step, FeedChan.emit, hp] at hs
          simp only [FeedOut.ok.injEq] at hs; rw [← hs.1]; exact hp
        | seq a w =>
          simp only [FeedChan.step] at hs
          split at hs
          · simp at hs
          · simp only [FeedOut.ok.injEq] at hs; rw [← hs.1]; exact hp
        | ownWindow s => simp only [FeedChan.step, FeedOut.ok.injEq] at hs; rw [← hs.1]; exact hp
      simp only [FeedChan.run, hs, Option.toList, List.nil_append]
      exact ih c' k1 hp' (fun o hm => ho o (List.mem_cons_of_mem _ hm))

theorem aux_ff_flags (m : Int) (ops : List FeedOp) : ∀ (c : FeedChan), aux_ff_Live m c → c.pending = [m] →
    (∀ op ∈ ops, (∀ m, op ≠ .send m) ∧ (∀ b, op ≠ .pause b)) →
    (∀ f ∈ (c.run ops).2, f.msgno = m) ∧
    ((∀ f ∈ (c.run ops).2, f.more = true) ∨
     (carried (c.run ops).2 = aux_ff_left c.feeder ∧
      ∃ fs f, (c.run ops).2 = fs ++ [f] ∧ (∀ g ∈ fs, g.more = true) ∧ f.more = false)) := by
  induction ops with
  | nil => intro c _ _ _; exact ⟨by simp [FeedChan.run], .inl (by simp [FeedChan.run])⟩
  | cons op ops ih =>
    intro c h hp ho
    cases hs : c.step op with
    | shutdown => exact ⟨by simp [FeedChan.run, hs], .inl (by simp [FeedChan.run, hs])⟩
    | overrun => exact ⟨by simp [FeedChan.run, hs], .inl (by simp [FeedChan.run, hs])⟩
    | ok c' fo =>
      obtain ⟨k1, _, k3⟩ := aux_ff_live_step h hs (ho op List.mem_cons_self).1 (ho op List.mem_cons_self).2
      have ho' : ∀ op ∈ ops, (∀ m, op ≠ .send m) ∧ (∀ b, op ≠ .pause b) := fun o hm => ho o (List.mem_cons_of_mem _ hm)
      have hst := aux_ff_step hs
      rcases k1.pending with hp' | ⟨hp', heof⟩
      · obtain ⟨i1, i2⟩ := ih c' k1 hp' ho'
        have hmsg : ∀ f ∈ fo, f.msgno = m ∧ f.more = true := by
          intro f hf
          have := k3 f hf
          rw [hp'] at this
          simpa using this
        simp only [FeedChan.run, hs]
        refine ⟨?_, ?_⟩
        · intro f hf
          simp only [List.mem_append, Option.mem_toList] at hf
          rcases hf with hf | hf
          · exact (hmsg f hf).1
          · exact i1 f hf
        · rcases i2 with i2 | ⟨i2, fs, f, e, hfs, hf⟩
          · left
            intro g hg
            simp only [List.mem_append, Option.mem_toList] at hg
            rcases hg with hg | hg
            · exact (hmsg g hg).2
            · exact i2 g hg
          · right
            refine ⟨by rw [aux_ff_carried_append, i2]; exact hst.1, fo.toList ++ fs, f, by rw [e, List.append_assoc], ?_, hf⟩
            intro g hg
            simp only [List.mem_append, Option.mem_toList] at hg
            rcases hg with hg | hg
            · exact (hmsg g hg).2
            · exact hfs g hg
      · have hd := aux_ff_done m ops c' k1 hp' ho'
        simp only [FeedChan.run, hs, hd, List.append_nil]
        refine ⟨?_, ?_⟩
        · intro f hf
          exact (k3 f (by simpa using hf)).1
        · cases fo with
          | none => left; simp
          | some f =>
            right
            refine ⟨?_, [], f, by simp, by simp, ?_⟩
            · have := hst.1
              rw [k1.eof heof, List.append_nil] at this
              exact this
            · have := (k3 f rfl).2
              rw [hp'] at this
              simpa using this

theorem aux_ff_before (ops : List FeedOp) : ∀ (c : FeedChan), SentOnce ops → c.pending = [] → c.paused = false →
    c.feeder.eof = false → (c.run ops).2 = [] ∨
    ∃ (c' : FeedChan) (m : Int) (rest : List FeedOp), (c.run ops).2 = (c'.run rest).2 ∧ aux_ff_Live m c' ∧
      c'.pending = [m] ∧ c'.feeder = c.feeder ∧ .send m ∈ ops ∧
      ∀ op ∈ rest, (∀ m, op ≠ .send m) ∧ (∀ b, op ≠ .pause b) := by
  induction ops with
  | nil => intro c h; exact h.elim
  | cons op ops ih =>
    intro c ho hp hpa he
    cases op with
    | send m =>
      right
      refine ⟨{ c with paused := false, pending := [m] }, m, ops, ?_, ⟨.inl rfl, rfl, ?_, fun _ => he⟩, rfl, rfl,
        List.mem_cons_self, ho⟩
      · simp [FeedChan.run, FeedChan.step, hp, hpa]
      · intro hc; simp [he] at hc
    | pause b => exact ho.elim
    | round =>
      have hs : c.step .round = .ok c none := by simp only [FeedChan.step, FeedChan.emit, hp]; split <;> rfl
      simp only [FeedChan.run, hs, Option.toList, List.nil_append]
      rcases ih c ho hp hpa he with h | ⟨c', m, rest, h1, h2, h3, h4, h5, h6⟩
      · exact .inl h
      · exact .inr ⟨c', m, rest, h1, h2, h3, h4, List.mem_cons_of_mem _ h5, h6⟩
    | lateRound =>
      have hs : c.step .lateRound = .ok c none := by simp only [FeedChan.step, FeedChan.emit, hp]
      simp only [FeedChan.run, hs, Option.toList, List.nil_append]
      rcases ih c ho hp hpa he with h | ⟨c', m, rest, h1, h2, h3, h4, h5, h6⟩
      · exact .inl h
      · exact .inr ⟨c', m, rest, h1, h2, h3, h4, List.mem_cons_of_mem _ h5, h6⟩
    | seq a w =>
      cases hg : c.win.grant (u32 a) (u32 w) with
      | none => left; simp [FeedChan.run, FeedChan.step, hg]
      | some win =>
        simp only [FeedChan.run, FeedChan.step, hg, Option.toList, List.nil_append]
        rcases ih { c with win := win } ho hp hpa he with h | ⟨c', m, rest, h1, h2, h3, h4, h5, h6⟩
        · exact .inl h
        · exact .inr ⟨c', m, rest, h1, h2, h3, h4, List.mem_cons_of_mem _ h5, h6⟩
    | ownWindow s =>
      simp only [FeedChan.run, FeedChan.step, Option.toList, List.nil_append]
      rcases ih { c with win := { c.win with windowSize := s } } ho hp hpa he with h | ⟨c', m, rest, h1, h2, h3, h4, h5, h6⟩
      · exact .inl h
      · exact .inr ⟨c', m, rest, h1, h2, h3, h4, List.mem_cons_of_mem _ h5, h6⟩

/-- **C39 (partial)** (one message): a file sent once and never paused goes out in frames of one message number,
all of them with the continuation flag until the last one, which has not; and once that one is sent the frames
carry the MIME separator, if requested, and the whole file, and nothing else is sent.
Missing: windows that let pass a single octet at the beginning (`C39_one_octet_window`), and files of 2 GB
(`C39_large_file`), which stop the transmission. -/
theorem C39_whole_file_partial (win : SendWin) (info : FeedMeta) (content : List Byte) (addMime : Bool)
    (ops : List FeedOp) (ho : SentOnce ops) :
    let fs := ((FeedChan.start win info content addMime).run ops).2
    (∃ m, ∀ f ∈ fs, f.msgno = m) ∧
    ((∀ f ∈ fs, f.more = true) ∨
     (carried fs = fileContent content addMime ∧
      ∃ gs f, fs = gs ++ [f] ∧ (∀ g ∈ gs, g.more = true) ∧ f.more = false)) := by
  intro fs
  rcases aux_ff_before ops (FeedChan.start win info content addMime) ho rfl rfl rfl with h | ⟨c', m, rest, h1, h2, h3, h4, h5, h6⟩
  · refine ⟨⟨0, ?_⟩, .inl ?_⟩ <;> (intro f hf; simp [fs, h] at hf)
  · obtain ⟨i1, i2⟩ := aux_ff_flags m rest c' h2 h3 h6
    simp only [fs, h1]
    refine ⟨⟨m, i1⟩, ?_⟩
    rw [h4, aux_ff_start] at i2
    exact i2

example : SentOnce [.ownWindow 4, .send 7, .round, .round, .round] ∧
    ((FeedChan.start SendWin.init ⟨.msg, 1, 0⟩ [1, 2, 3, 4, 5, 6] true).run [.ownWindow 4, .send 7, .round, .round, .round]).2.map
      (fun f => (f.more, f.payload)) = [(true, [13, 10, 1, 2]), (true, [3, 4, 5, 6]), (false, [])] := by
  constructor
  · simp [SentOnce]
  · decide +kernel

/-- **C39** (progress): in any state in which the file is being sent and is not paused, a round of the sequencer
for which the window lets `n` octets pass (two at least if the MIME separator is pending) sends `n` octets, or
the end of the file with the flag off, and then the message is over. -/
theorem C39_progress (win : SendWin) (info : FeedMeta) (content : List Byte) (addMime : Bool) (ops : List FeedOp)
    (c : FeedChan) (hc : ((FeedChan.start win info content addMime).run ops).1 = some c) (m : Int) (ms : List Int)
    (hp : c.pending = m :: ms) (hpa : c.paused = false) (n : Nat)
    (hn : c.win.nextFrameSize c.win.lastSeq c.feeder.getSize c.win.maxSeqNo = n) (h2 : 2 ≤ n) :
    ∃ c' f, c.emit = .ok c' (some f) ∧ f.msgno = m ∧
      ((f.more = true ∧ f.payload.length = n ∧ c'.pending = c.pending) ∨
       (f.more = false ∧ c'.pending = ms)) := by
  have hle := (nextFrameSize_le2 c.win c.feeder.getSize c.win.lastSeq c.win.maxSeqNo).1
  have hcond : ¬ ((n : Int) > c.feeder.getSize ∨ (n : Int) ≤ 0) := by rw [hn] at hle; omega
  cases hg : c.feeder.getContent n with
  | none =>
    simp only [FileFeeder.getContent] at hg
    split at hg
    · split at hg
      · omega
      · simp at hg
    · simp at hg
  | some r =>
    obtain ⟨b, f⟩ := r
    have hcon := aux_ff_content hg
    refine ⟨_, _, by simp only [FeedChan.emit, hp, hn, hcond, if_false, hpa, Int.toNat_natCast, hg, Bool.false_eq_true]; rfl,
      rfl, ?_⟩
    cases hf : f.eof with
    | true => right; simp [FeedChan.frame]
    | false => left; exact ⟨by simp [FeedChan.frame], hcon.2.2.2 hf, by simp [hp]⟩

example : ∃ c, ((FeedChan.start SendWin.init ⟨.msg, 1, 0⟩ [1, 2, 3] true).run [.ownWindow 4, .send 7, .round]).1 = some c ∧
    c.pending = [7] ∧ c.paused = false ∧ c.win.nextFrameSize c.win.lastSeq c.feeder.getSize c.win.maxSeqNo = 4 :=
  ⟨_, rfl, by decide +kernel, by decide +kernel, by decide +kernel⟩

/-- **C39** (full statement, violated): sending a file never breaks the connection. -/
def C39_statement : Prop :=
  ∀ (win : SendWin) (info : FeedMeta) (content : List Byte) (addMime : Bool) (msgno : Int), win.lastSeq < 4294967296 →
    win.remoteConsumed < 4294967296 → 0 < win.remoteWindow → win.stalled = false →
    ((FeedChan.start win info content addMime).run [.send msgno, .round]).1.isSome = true

/-- **C39 (fault)**: the window of the peer has room for one octet, and the MIME separator is requested: the rest
of the file is read into a buffer made for one octet. -/
theorem C39_one_octet_window :
    ∃ c, (FeedChan.start ⟨4095, 0, 4096, 4096⟩ ⟨.msg, 1, 0⟩ [1, 2, 3] true).step (.send 7) = .ok c none ∧
      c.step .round = .overrun := ⟨_, rfl, by decide +kernel⟩

/-- **C39 (fault)**: a file of 2 GB (up to 4 GB) is not sent: the connection is shut down. -/
theorem C39_large_file (win : SendWin) (info : FeedMeta) (content : List Byte) (addMime : Bool) (msgno : Int)
    (h1 : 2147483646 ≤ content.length) (h2 : content.length ≤ 4294967294) (hw : win.stalled = false) :
    ((FeedChan.start win info content addMime).run [.send msgno, .round]) = (none, []) := by
  have hs : (FileFeeder.new content addMime).getSize ≤ 0 := by
    simp only [FileFeeder.new, FileFeeder.getSize]
    generalize content.length = k at h1 h2
    unfold i32
    omega
  generalize hfd : FileFeeder.new content addMime = fd at hs
  have hn := (nextFrameSize_le2 win fd.getSize win.lastSeq win.maxSeqNo).1
  have hcond : win.nextFrameSize win.lastSeq fd.getSize win.maxSeqNo > fd.getSize ∨
      win.nextFrameSize win.lastSeq fd.getSize win.maxSeqNo ≤ 0 := by omega
  simp only [FeedChan.run, FeedChan.step, FeedChan.start, FeedChan.emit, hw, hfd, List.nil_append, Bool.false_eq_true,
    if_false, if_pos hcond, Option.toList]

example : SendWin.init.stalled = false ∧
    ∃ content : List Byte, 2147483646 ≤ content.length ∧ content.length ≤ 4294967294 := by
  have h : ∀ n : Nat, 2147483646 ≤ n → n ≤ 4294967294 →
      ∃ content : List Byte, 2147483646 ≤ content.length ∧ content.length ≤ 4294967294 := fun n h1 h2 =>
    ⟨List.replicate n 0, by rw [List.length_replicate]; exact ⟨h1, h2⟩⟩
  exact ⟨by decide, h 3000000000 (by omega) (by omega)⟩

theorem C39_statement_false : ¬ C39_statement := by
  intro h
  have := h ⟨4095, 0, 4096, 4096⟩ ⟨.msg, 1, 0⟩ [1, 2, 3] true 7 (by decide) (by decide) (by decide) (by decide +kernel)
  revert this
  decide +kernel

/-- **C39 (fault)**: a feeder is resumed before the sequencer has seen that it was paused: it is queued twice, and
the second message, whose number is not the one of the first, is an empty one. -/
theorem C39_resumed_twice :
    ((FeedChan.start SendWin.init ⟨.msg, 1, 0⟩ [1, 2, 3] true).run [.send 7, .pause false, .send 8, .round, .round]).2 =
    [⟨.msg, 1, 7, true, 0, 5, 0, [13, 10, 1, 2, 3]⟩, ⟨.msg, 1, 7, false, 5, 0, 0, []⟩] ∧
    ((FeedChan.start SendWin.init ⟨.msg, 1, 0⟩ [1, 2, 3] true).run [.send 7, .pause false, .send 8, .round, .round, .round]).2.drop 2 =
    [⟨.msg, 1, 0, false, 5, 0, 0, []⟩] := by decide +kernel

theorem aux_ff_total (ops : List FeedOp) : ∀ (c : FeedChan) (S L : Nat), SendInv c.win S L →
    S + (carried (c.run ops).2).length ≤ grantedFeeding L ops := by
  have mono : ∀ (ops : List FeedOp) (L : Nat), L ≤ grantedFeeding L ops := by
    intro ops
    induction ops with
    | nil => intro L; exact Nat.le_refl _
    | cons op ops ih =>
      intro L
      cases op <;> simp only [grantedFeeding] <;> first | exact ih _ | exact Nat.le_trans (nextLimit_ge _ _ _) (ih _)
  induction ops with
  | nil => intro c S L h; simp only [FeedChan.run, carried, grantedFeeding]; have := h.le; simp; omega
  | cons op ops ih =>
    intro c S L h
    have hSL : S ≤ L := by have := h.le; omega
    have emit : ∀ {c' fo}, c.emit = .ok c' fo → SendInv c'.win (S + (carried fo.toList).length) L := by
      intro c' fo hs
      simp only [FeedChan.emit] at hs
      split at hs
      · simp only [FeedOut.ok.injEq] at hs
        obtain ⟨rfl, rfl⟩ := hs
        simpa [carried] using h
      · split at hs
        · simp at hs
        · rename_i hcond
          split at hs
          · split at hs
            · simp only [FeedOut.ok.injEq] at hs
              obtain ⟨rfl, rfl⟩ := hs
              simpa [carried] using h
            · simp only [FeedOut.ok.injEq] at hs
              obtain ⟨rfl, rfl⟩ := hs
              have := advance_inv h 0 (by omega) (by omega) (by omega)
              simpa [carried, FeedChan.frame] using this
          · split at hs
            · simp at hs
            · rename_i b f hc
              simp only [FeedOut.ok.injEq] at hs
              obtain ⟨rfl, rfl⟩ := hs
              have hb := (aux_ff_content hc).2.1
              have h1 := nextFrameSize_le h c.feeder.getSize
              have h2 := (nextFrameSize_le2 c.win c.feeder.getSize c.win.lastSeq c.win.maxSeqNo).2
              have := advance_inv h b.length (by omega) (by omega) (by omega)
              simpa [carried, FeedChan.frame] using this
    have fin : ∀ {c' fo L'}, c.step op = .ok c' fo → SendInv c'.win (S + (carried fo.toList).length) L' →
        grantedFeeding L (op :: ops) = grantedFeeding L' ops →
        S + (carried (c.run (op :: ops)).2).length ≤ grantedFeeding L (op :: ops) := by
      intro c' fo L' hs hi hl
      have := ih c' _ _ hi
      simp only [FeedChan.run, hs, hl, aux_ff_carried_append, List.length_append]
      omega
    have bad : (c.run (op :: ops)).2 = [] → S + (carried (c.run (op :: ops)).2).length ≤ grantedFeeding L (op :: ops) := by
      intro he
      rw [he]
      have := mono (op :: ops) L
      simp [carried]; omega
    cases hs : c.step op with
    | shutdown => exact bad (by simp [FeedChan.run, hs])
    | overrun => exact bad (by simp [FeedChan.run, hs])
    | ok c' fo =>
      cases op with
      | send m =>
        refine fin hs ?_ rfl
        simp only [FeedChan.step, FeedOut.ok.injEq] at hs
        obtain ⟨rfl, rfl⟩ := hs
        simpa [carried] using h
      | pause b =>
        refine fin hs ?_ rfl
        simp only [FeedChan.step, FeedOut.ok.injEq] at hs
        obtain ⟨rfl, rfl⟩ := hs
        simpa [carried] using h
      | round =>
        refine fin hs ?_ rfl
        simp only [FeedChan.step] at hs
        split at hs
        · simp only [FeedOut.ok.injEq] at hs
          obtain ⟨rfl, rfl⟩ := hs
          simpa [carried] using h
        · exact emit hs
      | lateRound => exact fin hs (emit hs) rfl
      | seq a w =>
        refine fin hs (L' := nextLimit L a w) ?_ rfl
        simp only [FeedChan.step] at hs
        split at hs
        · simp at hs
        · rename_i win hg
          simp only [FeedOut.ok.injEq] at hs
          obtain ⟨rfl, rfl⟩ := hs
          simpa [carried] using (grant_inv h a w win hg).1
      | ownWindow s =>
        refine fin hs ?_ rfl
        simp only [FeedChan.step, FeedOut.ok.injEq] at hs
        obtain ⟨rfl, rfl⟩ := hs
        simpa [carried] using ownWindow_inv h s

/-- **C39** (window): the octets of a file sent on a new channel never exceed what the peer has granted. -/
theorem C39_within_window (info : FeedMeta) (content : List Byte) (addMime : Bool) (ops : List FeedOp) :
    (carried ((FeedChan.start SendWin.init info content addMime).run ops).2).length ≤ grantedFeeding 4096 ops := by
  have := aux_ff_total ops (FeedChan.start SendWin.init info content addMime) 0 4096 SendInv.init
  simpa using this

example : grantedFeeding 4096 [.send 7, .round, .seq 4096 4096] = 8192 := by decide +kernel

end Verif.Props
