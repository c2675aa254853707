import Verif.Spec.Reconnect
import Verif.Props.ConnNew
import Verif.Props.Watch
/-! Connecting again (C94). -/
namespace Verif.Props
open Verif.Model Verif.Spec Verif.Proof

/-! ### What is left of interrupted reads -/

theorem aux_rn_again : ∀ (fuel : Nat) (first : Bool) (acc : List Byte) (script : List Tok) (got : List Byte) (r : List Tok),
    readlineLoop fuel first acc script = (.again got, r) → got.length ≤ acc.length + fuel := by
  intro fuel first acc script
  induction script generalizing fuel first acc with
  | nil =>
    intro got r h
    cases fuel with
    | zero => simp [readlineLoop] at h
    | succ n => simp [readlineLoop] at h; rw [← h.1]; omega
  | cons t ts ih =>
    intro got r h
    cases fuel with
    | zero => simp [readlineLoop] at h
    | succ n =>
      cases t with
      | again => simp [readlineLoop] at h; rw [← h.1]; omega
      | eof => simp [readlineLoop] at h; split at h <;> simp at h
      | cut => simp only [readlineLoop] at h; exact ih _ _ _ _ _ h
      | byte c =>
        simp only [readlineLoop] at h
        split at h
        · simp at h
        · have := ih _ _ _ _ _ h
          simp only [List.length_append, List.length_singleton] at this
          omega

/-- What holds between two reads. -/
def aux_rn_inv (st : ReadState) : Prop :=
  (st.partialFrame.isSome = true → st.pendingLine = none ∧ st.noDataOpers = 0) ∧ (st.pendingLine.getD []).length ≤ 98 ∧ st.noDataOpers ≤ 25

/-- A result of the reader leaves such a state. -/
def aux_rn_ok : Next → Prop
  | .frame _ st => aux_rn_inv st
  | .pending st => aux_rn_inv st
  | _ => True

theorem aux_rn_process (f : Frame) (got : List Byte) (st : ReadState) (h : aux_rn_inv st) : aux_rn_ok (processBuffer f got st) := by
  unfold processBuffer
  split
  · exact h
  · trivial

def aux_rn_okChk : Next ⊕ Frame → Prop
  | .inl n => aux_rn_ok n
  | .inr _ => True

theorem aux_rn_ite {c : Prop} [Decidable c] (P : Next ⊕ Frame → Prop) (a b : Next ⊕ Frame) (ha : P a) (hb : P b) : P (if c then a else b) := by
  split
  · exact ha
  · exact hb

theorem aux_rn_check (env : ReadEnv) (line : List Byte) (st : ReadState) (h : aux_rn_inv st) : aux_rn_okChk (checkHeader env line st) := by
  unfold checkHeader
  refine aux_rn_ite aux_rn_okChk _ _ trivial ?_
  cases frameType line with
  | none => trivial
  | some type =>
    dsimp only
    generalize getHeaderData type (line.drop 4 ++ [NUL]) ((line.length : Int) - 4) = d
    cases d with
    | outside => trivial
    | closed => trivial
    | wrong => trivial
    | sentinel f => exact aux_rn_ite aux_rn_okChk _ _ trivial (aux_rn_ite aux_rn_okChk _ _ h trivial)
    | ok pos mc f =>
      exact aux_rn_ite aux_rn_okChk _ _ trivial (aux_rn_ite aux_rn_okChk _ _ h (aux_rn_ite aux_rn_okChk _ _ trivial
        (aux_rn_ite aux_rn_okChk _ _ trivial (aux_rn_ite aux_rn_okChk _ _ trivial trivial))))

theorem aux_rn_next (env : ReadEnv) (st : ReadState) (script : List Tok) (h : aux_rn_inv st) : aux_rn_ok (getNext env st script).1 := by
  obtain ⟨line, part, ops⟩ := st
  unfold getNext
  cases part with
  | some x =>
    obtain ⟨f, got, rem⟩ := x
    obtain ⟨hl, ho⟩ := h.1 rfl
    simp only at hl ho
    subst hl; subst ho
    dsimp only
    cases recv rem script with
    | mk a r =>
      cases a with
      | again => trivial
      | eof => trivial
      | data bs =>
        dsimp only
        split
        · exact ⟨fun _ => ⟨rfl, rfl⟩, by simp, by simp⟩
        · exact aux_rn_process _ _ _ ⟨by simp, by simp, by simp⟩
  | none =>
    dsimp only
    have hlen := h.2.1
    simp only at hlen
    split
    · trivial
    · cases hr : readlineLoop (98 - (line.getD []).length) true (line.getD []) script with
      | mk a r =>
        cases a with
        | eof => trivial
        | incomplete => trivial
        | again got =>
          have hg := aux_rn_again _ _ _ _ _ _ hr
          dsimp only
          split
          · trivial
          · next ho =>
            refine ⟨by simp, ?_, by simp only; omega⟩
            simp only
            split
            · simp
            · simp only [Option.getD_some]
              have := (List.takeWhile_sublist (p := fun x => decide (x ≠ NUL)) (l := got)).length_le
              omega
        | complete line' =>
          dsimp only
          have hz : aux_rn_inv ⟨none, none, 0⟩ := ⟨by simp, by simp, by simp⟩
          have hc := aux_rn_check env line' ⟨none, none, 0⟩ hz
          generalize checkHeader env line' ⟨none, none, 0⟩ = x at hc
          cases x with
          | inl n => exact hc
          | inr f =>
            dsimp only
            unfold readPayload
            split
            · exact hz
            · split
              · trivial
              · dsimp only
                cases recv (f.size.toNat + 5) r with
                | mk a r' =>
                  cases a with
                  | eof => trivial
                  | again => exact ⟨fun _ => ⟨rfl, rfl⟩, by simp, by simp⟩
                  | data bs =>
                    dsimp only
                    split
                    · exact aux_rn_process _ _ _ hz
                    · exact ⟨fun _ => ⟨rfl, rfl⟩, by simp, by simp⟩

theorem aux_rn_reached (st : ReadState) (h : ReadReached st) : aux_rn_inv st := by
  induction h with
  | new => exact ⟨by simp [ReadState.init], by simp [ReadState.init], by simp [ReadState.init]⟩
  | frame st st' env script rest f h hn ih =>
    have := aux_rn_next env st script ih
    rw [hn] at this
    exact this
  | pending st st' env script rest h hn ih =>
    have := aux_rn_next env st script ih
    rw [hn] at this
    exact this

theorem aux_rn_left (env : ReadEnv) (st : ReadState) (script rest : List Tok) (h : ReadReached st)
    (hn : getNext env st script = (.shutdown, rest)) : readLeft st script = .init ∨ 25 < (readLeft st script).noDataOpers := by
  have hi := aux_rn_reached st h
  obtain ⟨line, part, ops⟩ := st
  cases part with
  | some x =>
    obtain ⟨hl, ho⟩ := hi.1 rfl
    simp only at hl ho
    subst hl; subst ho
    exact Or.inl rfl
  | none =>
    have hlen := hi.2.1
    simp only at hlen
    have hd : ¬ 99 ≤ (line.getD []).length := by omega
    simp only [getNext, readLeft, ge_iff_le, hd, if_false] at hn ⊢
    cases hr : readlineLoop (98 - (line.getD []).length) true (line.getD []) script with
    | mk a r =>
      rw [hr] at hn
      cases a with
      | eof => exact Or.inl rfl
      | incomplete => exact Or.inl rfl
      | complete l => exact Or.inl rfl
      | again got =>
        dsimp only at hn ⊢
        split at hn
        · next ho => exact Or.inr ho
        · cases hn

theorem aux_rn_clean (n : Nat) (e : NewEnv) : reconnect n e ⟨.init, none⟩ = connNew n { e with started := true } := by
  simp only [reconnect, connNew, GxState.init, newReport]
  cases tcpConnect e.tcp with
  | none => rfl
  | some r => rfl

/-- A connection whose reader found it closed, or broken by the peer, is connected again as a new one would be. Missing: connections that
were shut down by another thread while a frame was being read, and those the reader gave up after 26 reads without data
(`C94_old_frame`, `C94_old_line`, `C94_counter`). -/
theorem C94_noticed_partial (env : ReadEnv) (st : ReadState) (script rest : List Tok) (h : ReadReached st)
    (hn : getNext env st script = (.shutdown, rest)) (hc : (readLeft st script).noDataOpers ≤ 25) (n : Nat) (e : NewEnv) :
    reconnect n e ⟨readLeft st script, none⟩ = connNew n { e with started := true } := by
  rcases aux_rn_left env st script rest h hn with hl | hl
  · rw [hl]; exact aux_rn_clean n e
  · omega

theorem aux_rn_new (n : Nat) (e : NewEnv) (left : Int) (hw : newWorks e left) (old : OldConn) (r : GxEnd)
    (hr : gxRun e.gx n ⟨old.st, old.pending, e.script, left, e.waits, true, []⟩ = some r) :
    reconnect n e old = some (match r with
      | .outside => .crash
      | .failed => newReport e false false none
      | .ok body _ _ => newReport e true true (some body)) := by
  obtain ⟨_, h2, h3, sock, err, h4⟩ := hw
  simp only [reconnect, h2, h3, h4, hr]
  cases r <;> rfl

/-- A first read that shuts the connection down. -/
theorem aux_rn_fails (n : Nat) (e : NewEnv) (left : Int) (hw : newWorks e left) (st : ReadState) (r : List Tok)
    (hn : getNext e.gx.read st e.script = (.shutdown, r)) : reconnect (n + 1) e ⟨st, none⟩ = some (newReport e false false none) := by
  rw [aux_rn_new (n + 1) e left hw ⟨st, none⟩ .failed (by simp [gxRun, gxStep, hn, gxNull])]

/-- C94 is violated: the connection was shut down while a frame was being read. The greetings of the peer are taken for the rest of that
frame, and refused. -/
theorem C94_old_frame (e : NewEnv) (left : Int) (hw : newWorks e left) (f : Frame) (hL : Legal f) (header : List Byte)
    (hh : headerOf f = some header) (rest : List Tok) (hs : e.script = header.map .byte ++ rest) (g : Frame) (got : List Byte) (rem : Nat)
    (hg : 0 ≤ g.size) (hlen : got.length + rem = g.size.toNat + 5) (hr : 0 < rem) (hr' : rem < header.length) (n : Nat) :
    reconnect (n + 1) e ⟨⟨none, some (g, got, rem), 0⟩, none⟩ = some (newReport e false false none) := by
  obtain ⟨h0, he, hlf, _⟩ := (headerOf_line f hL header hh).shape
  have hcr : LF ∉ h0 ++ [CR] := by
    simp only [List.mem_append, List.mem_singleton, not_or]
    exact ⟨hlf, by decide⟩
  have htake : header.take rem = (h0 ++ [CR]).take rem := by
    rw [he]
    rw [he] at hr'
    simp only [List.length_append, List.length_singleton] at hr'
    rw [List.take_append_of_le_length (by simp; omega)]
  have hmap : header.map Tok.byte ++ rest = (header.take rem).map Tok.byte ++ ((header.drop rem).map Tok.byte ++ rest) := by
    rw [← List.append_assoc, ← List.map_append, List.take_append_drop]
  have hrecv : recv rem e.script = (.data (header.take rem), (header.drop rem).map Tok.byte ++ rest) := by
    have hl : (header.take rem).length = rem := by rw [List.length_take]; omega
    have := aux_cn_bytes ((header.drop rem).map Tok.byte ++ rest) (header.take rem)
    rw [hl] at this
    rw [hs, hmap]
    cases hx : header.take rem with
    | nil => rw [hx] at hl; simp at hl; omega
    | cons a as =>
      rw [hx] at this
      simp only [List.map_cons, List.cons_append, recv] at this ⊢
      rw [this]
  refine aux_rn_fails n e left hw _ ((header.drop rem).map Tok.byte ++ rest) ?_
  have hl : (header.take rem).length = rem := by rw [List.length_take]; omega
  simp only [getNext, hrecv, hl, ne_eq, not_true_eq_false, if_false, processBuffer]
  rw [if_neg]
  intro hbad
  have hlast : (got ++ header.take rem).getLast? = some LF := by
    rw [← List.take_append_drop g.size.toNat (got ++ header.take rem), hbad, List.getLast?_append]
    rfl
  have : LF ∈ header.take rem := by
    cases hx : header.take rem with
    | nil => rw [hx] at hl; simp at hl; omega
    | cons a as =>
      rw [hx, List.getLast?_append] at hlast
      exact List.mem_of_getLast? (by
        cases hy : (a :: as).getLast? with
        | none => simp at hy
        | some b => rw [hy] at hlast; simpa using hlast)
  rw [htake] at this
  exact hcr (List.mem_of_mem_take this)

/-- C94 is violated: reads without data are counted on, from before. -/
theorem C94_counter (e : NewEnv) (left : Int) (hw : newWorks e left) (rest : List Tok) (hs : e.script = .again :: rest) (k : Nat)
    (hk : 25 ≤ k) (n : Nat) : reconnect (n + 1) e ⟨⟨none, none, k⟩, none⟩ = some (newReport e false false none) := by
  have h : 25 < k + 1 := by omega
  exact aux_rn_fails n e left hw _ rest (by simp [getNext, hs, readlineLoop, h])

/-- C94 is violated: the greetings are joined to a fragment from an earlier attempt, and refused. -/
theorem C94_old_fragment (e : NewEnv) (left : Int) (hw : newWorks e left) (f : Frame) (hL : Legal f) (ht : f.type ≠ .seq)
    (hf : f.seqno = 0) (hwin : letsIn e.gx.read [f]) (header : List Byte) (hh : headerOf f = some header) (rest : List Tok)
    (hs : e.script = header.map .byte ++ ((bodyOf f).map .byte ++ rest)) (g : Frame) (hg : 0 < g.size)
    (hg' : g.seqno + g.size < 4294967296) (n : Nat) :
    reconnect (n + 1) e ⟨.init, some (VFrame.ofWire g)⟩ = some (newReport e false false none) := by
  have hwf := hwin f (by simp)
  have hn := aux_cn_whole e.gx.read f hL ht header hh hwf.1 hwf.2 (header.map .byte) rest (aux_cn_octets header) (by simp) (by simp)
  have hj : (VFrame.ofWire g).join (VFrame.ofWire f) = none := by
    have : (VFrame.ofWire g).joinable (VFrame.ofWire f) = false := by
      have h : u32 ((g.seqno : Int) + g.size + 0) ≠ 0 := by
        unfold u32; omega
      simp only [VFrame.joinable, VFrame.ofWire, hf]
      grind
    simp [VFrame.join, this]
  rw [aux_rn_new (n + 1) e left hw ⟨.init, some (VFrame.ofWire g)⟩ .failed (by simp [gxRun, gxStep, hs, hn, clientGreeting, hj, gxNull])]

/-! ### The reader thread -/

theorem aux_rn_scan (full : Nat → Bool) (d : Nat) : ∀ (l : List Nat) (f : Nat → WatchConn), ((watchScan full l f).1 d).refs ≤ (f d).refs := by
  intro l
  induction l with
  | nil => intro f; simp [watchScan]
  | cons c l ih =>
    intro f
    simp only [watchScan]
    split
    · exact Nat.le_trans (ih _) (by split <;> simp_all [WatchConn.unref])
    · split
      · exact Nat.le_trans (ih _) (by split <;> simp_all [WatchConn.unref])
      · split
        · exact ih _
        · split
          · exact Nat.le_trans (ih _) (by split <;> simp_all [WatchConn.unref])
          · exact ih _

theorem aux_rn_close (d : Nat) : ∀ (l : List Nat) (f : Nat → WatchConn), ((watchClose l f).1 d).refs ≤ (f d).refs := by
  intro l
  induction l with
  | nil => intro f; simp [watchClose]
  | cons c l ih =>
    intro f
    simp only [watchClose]
    exact Nat.le_trans (ih _) (by split <;> simp_all [WatchConn.unref])

theorem aux_rn_reg (s : Watch) (i : WatchItem) (d : Nat) : ((s.register i).1.conns d).refs ≤ (s.conns d).refs := by
  cases i with
  | conn c =>
    simp only [Watch.register]
    split
    · exact Nat.le_refl _
    · simp only [Watch.upd]; split <;> simp_all [WatchConn.unref]
  | _ => exact Nat.le_refl _

theorem aux_rn_stop (s : Watch) (d : Nat) : (s.stopProcess.1.conns d).refs ≤ (s.conns d).refs := by
  simp only [Watch.stopProcess]
  exact Nat.le_trans (aux_rn_close d _ _) (aux_rn_close d _ _)

theorem aux_rn_reader (s : Watch) (e : WatchEnv) (t : Watch) (l : List WatchEvent) (h : s.reader e = some (t, l)) (d : Nat) :
    (t.conns d).refs ≤ (s.conns d).refs := by
  unfold Watch.reader at h
  split at h
  · split at h
    · cases h; exact Nat.le_refl _
    · cases h; exact aux_rn_stop _ d
    · split at h
      · cases h; exact Nat.le_refl _
      · cases h
    · cases h; exact Nat.le_refl _
    · cases h
      have := aux_rn_reg { s with queue := ‹List WatchItem› } ‹WatchItem› d
      split
      · exact this
      · exact this
  · split at h
    · cases h; exact Nat.le_refl _
    · next i q hq =>
      cases h
      exact aux_rn_reg { s with queue := q, group := some s.mech } i d
  · split at h
    · cases h
    · split at h
      · cases h; exact Nat.le_refl _
      · cases h
        exact Nat.le_trans (aux_rn_scan _ d _ _) (aux_rn_scan _ d _ _)
  · split at h
    · cases h
    · cases h; exact Nat.le_refl _
  · cases h; exact Nat.le_refl _
  · cases h; exact Nat.le_refl _
  · split at h
    · cases h; exact Nat.le_refl _
    · cases h; exact aux_rn_stop _ d
  · split at h
    · cases h; exact Nat.le_refl _
    · cases h; exact Nat.le_refl _
    · split at h
      · cases h; exact Nat.le_refl _
      · cases h
    · cases h; exact Nat.le_refl _
    · next i q hq _ _ _ =>
      cases h
      exact aux_rn_reg { s with queue := q } i d
  · split at h
    · cases h; exact Nat.le_refl _
    · next i q hq =>
      cases h
      exact aux_rn_reg { s with queue := q, group := some s.mech } i d
  · cases h; exact Nat.le_refl _

theorem aux_rn_owned (s : Watch) (op : ReconOp) (t : Watch) (l : List WatchEvent) (h : aux_wa_owned s)
    (hs : s.reconStep op = some (t, l)) : aux_wa_owned t := by
  cases op with
  | other op => exact aux_wa_owned_step s op t l h hs
  | reconnect c =>
    simp only [Watch.reconStep, Option.some.injEq, Prod.mk.injEq] at hs
    obtain ⟨rfl, _⟩ := hs
    simp only [Watch.reconnect]
    split
    · exact h
    · intro d
      have hd := h d
      simp only [watchHeld] at hd ⊢
      simp only [Watch.upd, Watch.push, List.count_append]
      by_cases hc : d = c
      · subst hc; simp; omega
      · have h1 : ¬ (c = d) := fun h => hc h.symm
        simp [hc, h1]; omega

/-- The reader has one reference for each registration, with reconnections too. -/
theorem C94_owned (conns : Nat → WatchConn) (ops : List ReconOp) (s : Watch) (log : List WatchEvent)
    (h : (Watch.init conns).reconRun ops = some (s, log)) (c : Nat) : (s.conns c).refs = watchHeld s c := by
  have gen : ∀ (ops : List ReconOp) (s t : Watch) (l : List WatchEvent), aux_wa_owned s → s.reconRun ops = some (t, l) → aux_wa_owned t := by
    intro ops
    induction ops with
    | nil => intro s t l h hr; simp [Watch.reconRun] at hr; exact hr.1 ▸ h
    | cons op ops ih =>
      intro s t l h hr
      simp only [Watch.reconRun] at hr
      cases hs : s.reconStep op with
      | none => simp [hs] at hr
      | some x =>
        simp only [hs, Option.map_eq_some_iff] at hr
        obtain ⟨⟨a, b⟩, hr, he⟩ := hr
        cases he
        exact ih _ _ _ (aux_rn_owned s op _ _ h hs) hr
  exact gen ops _ _ _ (by intro c; simp [Watch.init, watchHeld]) h c

/-- If a connection is connected again only after the reader dropped it, it is registered at most once at any time. -/
theorem C94_once_partial (conns : Nat → WatchConn) (ops : List ReconOp) (s : Watch) (log : List WatchEvent)
    (hsafe : reconSafe (Watch.init conns) ops) (h : (Watch.init conns).reconRun ops = some (s, log)) (c : Nat) : watchHeld s c ≤ 1 := by
  rw [← C94_owned conns ops s log h c]
  have gen : ∀ (ops : List ReconOp) (s t : Watch) (l : List WatchEvent), (∀ c, (s.conns c).refs ≤ 1) → reconSafe s ops →
      s.reconRun ops = some (t, l) → ∀ c, (t.conns c).refs ≤ 1 := by
    intro ops
    induction ops with
    | nil => intro s t l h _ hr; simp [Watch.reconRun] at hr; exact hr.1 ▸ h
    | cons op ops ih =>
      intro s t l h hq hr
      simp only [Watch.reconRun] at hr
      cases hs : s.reconStep op with
      | none => simp [hs] at hr
      | some x =>
        simp only [hs, Option.map_eq_some_iff] at hr
        obtain ⟨⟨a, b⟩, hr, he⟩ := hr
        cases he
        obtain ⟨u, l1⟩ := x
        refine ih _ _ _ ?_ (hq.2 u l1 hs) hr
        intro d
        have hd := h d
        have hz := hq.1
        have bump : ∀ (c : Nat) (w : WatchConn), (s.conns c).refs = 0 → w.refs = (s.conns c).refs + 1 →
            (if d = c then w else s.conns d).refs ≤ 1 := by
          intro c w h0 h1
          split
          · omega
          · exact hd
        cases op with
        | reconnect c =>
          simp only [Watch.reconStep, Option.some.injEq, Prod.mk.injEq] at hs
          obtain ⟨rfl, _⟩ := hs
          simp only [Watch.reconnect]
          split
          · exact hd
          · exact bump c _ (hz c (Or.inl rfl)) rfl
        | other op =>
          simp only [Watch.reconStep] at hs
          cases op with
          | reader e => exact Nat.le_trans (aux_rn_reader s e u l1 hs d) hd
          | watch c =>
            simp only [Watch.step] at hs
            split at hs
            · cases hs; exact bump c _ (hz c (Or.inr (Or.inl rfl))) rfl
            · cases hs; exact hd
          | listen c =>
            simp only [Watch.step] at hs
            cases hs; exact bump c _ (hz c (Or.inr (Or.inr rfl))) rfl
          | unwatch c => simp only [Watch.step] at hs; cases hs; simp only [Watch.upd]; split <;> simp_all
          | block c b => simp only [Watch.step] at hs; cases hs; simp only [Watch.upd]; split <;> simp_all
          | close c => simp only [Watch.step] at hs; cases hs; simp only [Watch.upd]; split <;> simp_all
          | stop => simp only [Watch.step] at hs; cases hs; exact hd
          | foreach k => simp only [Watch.step] at hs; cases hs; exact hd
          | useBegin m => simp only [Watch.step] at hs; split at hs <;> cases hs <;> exact hd
          | useSet =>
            simp only [Watch.step] at hs
            split at hs
            · split at hs <;> cases hs <;> exact hd
            · cases hs; exact hd
          | useEnd => simp only [Watch.step] at hs; split at hs <;> cases hs <;> exact hd
  exact gen ops _ _ _ (by simp [Watch.init]) hsafe h c

/-- C94 is violated: a connection that is shut down by another thread and connected again before the reader looked at it is watched twice, and
read twice when octets arrive. -/
theorem C94_twice (conns : Nat → WatchConn) (h : watchable (conns 0)) : ∃ (idle ready : WatchEnv) (s : Watch),
    (Watch.init conns).reconRun [.other (.watch 0), .other (.reader idle), .other (.reader idle), .other (.close 0), .reconnect 0,
        .other (.reader idle), .other (.reader idle), .other (.reader idle), .other (.reader idle), .other (.reader idle),
        .other (.reader ready), .other (.reader ready), .other (.reader ready)] = some (s, [.process 0, .process 0]) ∧
      (s.conns 0).ok = true ∧ watchHeld s 0 = 2 := by
  obtain ⟨h1, h2, h3⟩ := h
  refine ⟨⟨fun _ => false, fun _ => false⟩, ⟨fun _ => false, fun _ => true⟩, ?_⟩
  simp [Watch.reconRun, Watch.reconStep, Watch.step, Watch.init, Watch.reader, Watch.register, watchScan, Watch.upd, Watch.push,
    Watch.reconnect, h1, h2, h3, watchHeld]

theorem aux_rn_short (X : List Tok) : ∀ (bs : List Byte) (n : Nat), bs.length ≤ n → takeBytes n (bs.map .byte ++ .again :: X) = (bs, .again :: X) := by
  intro bs
  induction bs with
  | nil => intro n _; cases n <;> rfl
  | cons b bs ih =>
    intro n hn
    cases n with
    | zero => simp at hn
    | succ n =>
      simp only [List.length_cons] at hn
      simp only [List.map_cons, List.cons_append, takeBytes, ih n (by omega)]

/-- What that means: a frame whose payload arrives in two pieces closes the connection when it is read twice, and would be received if
the connection was read when there are octets. -/
theorem C94_twice_breaks (env : ReadEnv) (f : Frame) (hL : Legal f) (ht : f.type ≠ .seq) (header : List Byte) (hh : headerOf f = some header)
    (hch : env.channelExists f.channel = true) (hsq : env.seqnoOk f.channel f.seqno f.size = true) (x y : List Byte) (hx : x ≠ []) (hy : y ≠ [])
    (hb : bodyOf f = x ++ y) (rest : List Tok) :
    ∃ st, getNext env .init (header.map .byte ++ (x.map .byte ++ .again :: (y.map .byte ++ rest))) = (.pending st, .again :: (y.map .byte ++ rest)) ∧
      getNext env st (.again :: (y.map .byte ++ rest)) = (.shutdown, y.map .byte ++ rest) ∧
      getNext env st (poll (.again :: (y.map .byte ++ rest))) = (.frame f .init, rest) := by
  have hl := bodyOf_length f hL ht
  have hl' := hl
  rw [hb, List.length_append] at hl'
  have hy' : 0 < y.length := List.length_pos_iff.mpr hy
  refine ⟨{ ReadState.init with partialFrame := some (Frame.hdr f, x, f.size.toNat + 5 - x.length) }, ?_, ?_, ?_⟩
  · rw [aux_cn_head env f hL ht header hh hch hsq (header.map .byte) _ (aux_cn_octets header) (by simp) (by simp)]
    have hr : recv (f.size.toNat + 5) (x.map .byte ++ .again :: (y.map .byte ++ rest)) = (.data x, .again :: (y.map .byte ++ rest)) := by
      have := aux_rn_short (y.map .byte ++ rest) x (f.size.toNat + 5) (by omega)
      cases hxx : x with
      | nil => exact absurd hxx hx
      | cons a as =>
        rw [hxx] at this
        simp only [List.map_cons, List.cons_append, recv] at this ⊢
        rw [this]
    rw [hr]
    dsimp only
    rw [if_neg (by omega)]
  · simp [getNext, recv]
  · have hn : f.size.toNat + 5 - x.length = y.length := by omega
    have hr : recv y.length (y.map .byte ++ rest) = (.data y, rest) := by
      have := aux_cn_bytes rest y
      cases hyy : y with
      | nil => exact absurd hyy hy
      | cons a as =>
        rw [hyy] at this
        simp only [List.map_cons, List.cons_append, recv] at this ⊢
        rw [this]
    have hp : poll (.again :: (y.map .byte ++ rest)) = y.map .byte ++ rest := by
      cases y with
      | nil => exact absurd rfl hy
      | cons a as => rfl
    rw [hp]
    simp only [getNext, hn, hr, ne_eq, not_true_eq_false, if_false, ← hb]
    rw [show ({ ReadState.init with partialFrame := none } : ReadState) = ReadState.init from rfl, processBuffer_ok f hL ht]

/-! ### The property -/

/-- The whole of C94: a connection that is connected again is reported as a new one would be, and is watched once. -/
def C94_statement : Prop :=
  (∀ old, OldReached old → ∀ n e, reconnect n e old = connNew n { e with started := true }) ∧
  (∀ conns ops s log, watchFirst (Watch.init conns) ops → (Watch.init conns).reconRun ops = some (s, log) → ∀ c, watchHeld s c ≤ 1)

/-- The peer was asking for something when the connection was shut down. -/
def aux_rn_line : List Byte := lit "MSG 0 3"

theorem aux_rn_line_reached : ReadReached ⟨some aux_rn_line, none, 1⟩ :=
  .pending .init _ ⟨fun _ => true, fun _ _ _ => true⟩ (aux_rn_line.map .byte ++ [.again]) [] .new (by decide +kernel)

def aux_rn_script : List Tok := (aux_cn_hd false).map .byte ++ ((bodyOf (aux_cn_frame false)).map .byte ++ [])

/-- C94 is violated: the connection was shut down while a header line was being read. The greetings are read as the rest of that line, and
refused; a new connection would accept them. -/
theorem C94_old_line (n : Nat) :
    ReadReached ⟨some aux_rn_line, none, 1⟩ ∧
    reconnect (n + 1) (aux_cn_env 0 aux_rn_script []) ⟨⟨some aux_rn_line, none, 1⟩, none⟩ =
      some (newReport (aux_cn_env 0 aux_rn_script []) false false none) ∧
    ∃ m, connNew m (aux_cn_env 0 aux_rn_script []) = some (newReport (aux_cn_env 0 aux_rn_script []) true true (some (lit "<greeting />"))) := by
  refine ⟨aux_rn_line_reached, ?_, ?_⟩
  · exact aux_rn_fails n _ 0 (aux_cn_env_works _ _).1 _ ((bodyOf (aux_cn_frame false)).map .byte ++ []) (by decide +kernel)
  · exact C93_whole_partial _ 0 (aux_cn_env_works _ _).1 (by decide) _ _ (aux_cn_env_greet _ _ _)
      (.cons _ _ _ _ _ (aux_cn_hd_ok false) (aux_cn_octets _) (by simp) (by simp) (.nil _))

theorem C94_statement_false : ¬ C94_statement := by
  intro ⟨h, _⟩
  obtain ⟨h1, h2, m, h3⟩ := C94_old_line 0
  have hall : ∀ k, reconnect (k + 1) (aux_cn_env 0 aux_rn_script []) ⟨⟨some aux_rn_line, none, 1⟩, none⟩ =
      some (newReport (aux_cn_env 0 aux_rn_script []) false false none) := fun k => (C94_old_line k).2.1
  cases m with
  | zero =>
    rw [aux_cn_new 0 _ 0 (aux_cn_env_works _ _).1] at h3
    simp [gxRun] at h3
  | succ m =>
    have := h _ (.shut _ h1) (m + 1) (aux_cn_env 0 aux_rn_script [])
    rw [hall m, show ({ aux_cn_env 0 aux_rn_script [] with started := true } : NewEnv) = aux_cn_env 0 aux_rn_script [] from rfl, h3] at this
    simp [newReport, aux_cn_env] at this

-- C94_noticed_partial: a frame is read, then the peer closes in the middle of the next one
example : ∃ (env : ReadEnv) (st : ReadState) (script rest : List Tok), ReadReached st ∧ st ≠ .init ∧
    getNext env st script = (.shutdown, rest) ∧ (readLeft st script).noDataOpers ≤ 25 :=
  ⟨⟨fun _ => true, fun _ _ _ => true⟩, ⟨some aux_rn_line, none, 1⟩, [.eof], [.eof], aux_rn_line_reached, by decide +kernel, by decide +kernel,
    by decide +kernel⟩

-- C94_old_frame: only the end of a frame was missing
example : ∃ e g got rem, newWorks e 60 ∧ Legal (aux_cn_frame false) ∧ headerOf (aux_cn_frame false) = some (aux_cn_hd false) ∧
    e.script = (aux_cn_hd false).map .byte ++ [] ∧ 0 ≤ g.size ∧ got.length + rem = g.size.toNat + 5 ∧ 0 < rem ∧ rem < (aux_cn_hd false).length ∧
    ReadReached ⟨none, some (g, got, rem), 0⟩ := by
  refine ⟨aux_cn_env 60000000 ((aux_cn_hd false).map .byte ++ []) [], ⟨.msg, 0, 3, false, 0, 2, 0, []⟩, lit "ab", 5, (aux_cn_env_works _ _).2,
    aux_cn_frame_legal false, aux_cn_hd_ok false, rfl, by decide, by decide +kernel, by decide, by decide +kernel, ?_⟩
  exact .pending .init _ ⟨fun _ => true, fun _ _ _ => true⟩ ((lit "MSG 0 3 . 0 2\r\nab").map .byte ++ [.again]) [.again] .new (by decide +kernel)

-- C94_counter
example : ∃ (e : NewEnv) (k : Nat), newWorks e 60 ∧ e.script = [.again] ∧ 25 ≤ k ∧ ReadReached ⟨none, none, k⟩ := by
  refine ⟨aux_cn_env 60000000 [.again] [], 25, (aux_cn_env_works _ _).2, rfl, by omega, ?_⟩
  have : ∀ k, k ≤ 25 → ReadReached ⟨none, none, k⟩ := by
    intro k
    induction k with
    | zero => intro _; exact .new
    | succ k ih =>
      intro hk
      have h : ¬ 25 < k + 1 := by omega
      exact .pending _ _ ⟨fun _ => true, fun _ _ _ => true⟩ [.again] [] (ih (by omega)) (by simp [getNext, readlineLoop, h])
  exact this 25 (by omega)

-- C94_old_fragment
example : ∃ e, newWorks e 0 ∧ Legal (aux_cn_frame false) ∧ (aux_cn_frame false).seqno = 0 ∧ letsIn e.gx.read [aux_cn_frame false] ∧
    e.script = (aux_cn_hd false).map .byte ++ ((bodyOf (aux_cn_frame false)).map .byte ++ []) ∧ 0 < (aux_cn_frame true).size ∧
    ((aux_cn_frame true).seqno : Int) + (aux_cn_frame true).size < 4294967296 :=
  ⟨aux_cn_env 0 aux_rn_script [], (aux_cn_env_works _ _).1, aux_cn_frame_legal false, rfl, (aux_cn_env_greet 0 aux_rn_script []).window, rfl,
    by decide +kernel, by decide +kernel⟩

-- C94_once_partial, C94_owned: the reader drops the connection, then it is connected again
example : ∃ ops s, reconSafe (Watch.init fun _ => ⟨true, false, false, 0⟩) ops ∧ ops.length = 9 ∧
    (Watch.init fun _ => ⟨true, false, false, 0⟩).reconRun ops = some (s, [.drop 0]) ∧ watchHeld s 0 = 1 := by
  refine ⟨[.other (.watch 0), .other (.reader ⟨fun _ => false, fun _ => false⟩), .other (.reader ⟨fun _ => false, fun _ => false⟩), .other (.close 0),
    .other (.reader ⟨fun _ => false, fun _ => false⟩), .other (.reader ⟨fun _ => false, fun _ => false⟩), .other (.reader ⟨fun _ => false, fun _ => false⟩),
    .other (.reader ⟨fun _ => false, fun _ => false⟩), .reconnect 0], ?_⟩
  simp [reconSafe, Watch.reconRun, Watch.reconStep, Watch.step, Watch.init, Watch.reader, Watch.register, watchScan, Watch.upd, Watch.push,
    Watch.reconnect, watchHeld, WatchConn.unref]

-- C94_twice
example : watchable ⟨true, false, false, 0⟩ := ⟨rfl, rfl, rfl⟩

-- C94_twice_breaks
example : ∃ x y, Legal (aux_cn_frame false) ∧ (aux_cn_frame false).type ≠ .seq ∧ headerOf (aux_cn_frame false) = some (aux_cn_hd false) ∧ x ≠ [] ∧
    y ≠ [] ∧ bodyOf (aux_cn_frame false) = x ++ y :=
  ⟨(bodyOf (aux_cn_frame false)).take 5, (bodyOf (aux_cn_frame false)).drop 5, aux_cn_frame_legal false, by decide, aux_cn_hd_ok false,
    by decide +kernel, by decide +kernel, (List.take_append_drop _ _).symm⟩

end Verif.Props
