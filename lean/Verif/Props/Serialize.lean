import Verif.Model.Serialize
/-!
# C19: serialized delivery
-/
namespace Verif.Props
open Verif.Model

/-- The handler called for frames 0, 1, …, n - 1 in turn, each call after the last one returned. -/
def inTurn : Nat → List SerEvent
  | 0 => []
  | n + 1 => inTurn n ++ [.begins n, .ends n]

/-- The log is a beginning of `inTurn`. -/
def InOrder (log : List SerEvent) (n : Nat) : Prop := ∃ k, k ≤ n ∧ (log = inTurn k ∨ (k < n ∧ log = inTurn k ++ [.begins k]))

/-- No thread has a frame to deal with. -/
def Idle (s : Ser) : Prop := s.waiting = [] ∧ s.calling = []

/-- C19 in full: the handler is called for the frames in arrival order, one at a time; and when no
thread has anything left to do it has been called for all of them. -/
def C19_statement : Prop := ∀ (last : Nat) (ops : List SerOp), last < 4294967296 →
  InOrder ((Ser.init last).run ops).1 ((Ser.init last).run ops).2.arrived ∧
  (Idle ((Ser.init last).run ops).2 → ((Ser.init last).run ops).1 = inTurn ((Ser.init last).run ops).2.arrived)

/-- A frame without content (a NUL reply, or an empty message): the frame after it carries the same sequence number, so
both pass the check at the same time, and the second may be first. -/
theorem C19_empty_frame :
    ((Ser.init 0).run [.arrive 0, .arrive 10, .check 1, .call 0, .check 0]).1 = [.begins 1] := by decide +kernel

/-- Two frames with the same number waiting for their turn: one is destroyed, never delivered. -/
theorem C19_frame_lost :
    let r := (Ser.init 0).run [.arrive 5, .arrive 0, .arrive 10, .check 1, .check 1, .check 0, .call 0, .finish 0,
      .call 0, .finish 0]
    r.1 = [.begins 0, .ends 0, .begins 2, .ends 2] ∧ Idle r.2 ∧ r.2.arrived = 3 := by
  refine ⟨?_, ?_, ?_⟩
  · decide +kernel
  · exact ⟨by decide +kernel, by decide +kernel⟩
  · decide +kernel

/-- A reply given to a thread waiting for it: nothing that comes after it is ever delivered. -/
theorem C19_after_wait_reply :
    let r := (Ser.init 0).run [.arrive 10, .consumed 20, .arrive 10, .check 0, .call 0, .finish 0, .check 0]
    r.1 = [.begins 0, .ends 0] ∧ Idle r.2 ∧ r.2.arrived = 2 := by
  refine ⟨?_, ?_, ?_⟩
  · decide +kernel
  · exact ⟨by decide +kernel, by decide +kernel⟩
  · decide +kernel

theorem C19_statement_false : ¬ C19_statement := by
  intro h
  have := (h 0 [.arrive 10, .consumed 20, .arrive 10, .check 0, .call 0, .finish 0, .check 0] (by decide)).2
    ⟨by decide +kernel, by decide +kernel⟩
  exact absurd this (by decide +kernel)

/-- Octets of frames received and not yet through the handler. -/
def octetsWaiting (s : Ser) : Nat :=
  (s.waiting.map (·.size)).sum + (s.hash.map (·.size)).sum + (s.calling.map (·.1.size)).sum

/-- Every frame has content, none is taken by a waiting thread, and there are never more than 2^32 octets waiting for
the handler. -/
def Plain (s : Ser) : List SerOp → Prop
  | [] => octetsWaiting s ≤ 4294967296
  | op :: ops => octetsWaiting s ≤ 4294967296 ∧ (∀ n, op = .arrive n → 0 < n) ∧ (∀ n, op ≠ .consumed n) ∧
      Plain (s.step op).2 ops

/-- Position of frame `i` in the stream, from the sizes of the frames arrived. -/
def aux_ser_pos (start : Nat) (sizes : List Nat) (i : Nat) : Nat := start + (sizes.take i).sum

/-- The frame `f` is the one that arrived with its number. -/
structure aux_ser_Is (start : Nat) (sizes : List Nat) (f : SFrame) : Prop where
  seqno : f.seqno = aux_ser_pos start sizes f.id % 4294967296
  size : sizes[f.id]? = some f.size

def aux_ser_all (s : Ser) : List SFrame := s.waiting ++ s.calling.map (·.1) ++ s.hash

structure aux_ser_SInv (start : Nat) (sizes : List Nat) (k : Nat) (log : List SerEvent) (s : Ser) : Prop where
  arrived : s.arrived = sizes.length
  seqno : s.seqno = (start + sizes.sum) % 4294967296
  pos : ∀ n ∈ sizes, 0 < n
  le : k ≤ s.arrived
  next : s.next = aux_ser_pos start sizes k % 4294967296
  is : ∀ f ∈ aux_ser_all s, aux_ser_Is start sizes f
  parts : ((aux_ser_all s).map (·.id)).Perm (List.range' k (s.arrived - k))
  turn : ∀ c ∈ s.calling, c.1.id = k
  nothash : ∀ f ∈ s.hash, f.id ≠ k
  log : (log = inTurn k ∧ ∀ c ∈ s.calling, c.2 = false) ∨ (log = inTurn k ++ [.begins k] ∧ ∃ f, s.calling = [(f, true)])

theorem aux_ser_perm_eraseIdx {α : Type} {l : List α} {i : Nat} {x : α} (h : l[i]? = some x) :
    l.Perm (x :: l.eraseIdx i) := by
  induction l generalizing i with
  | nil => simp at h
  | cons y l ih =>
    cases i with
    | zero => simp at h; subst h; simp
    | succ i =>
      simp at h
      simp only [List.eraseIdx_cons_succ]
      exact ((ih h).cons y).trans (List.Perm.swap _ _ _)

theorem aux_ser_sum_take {l : List Nat} {i n : Nat} (h : l[i]? = some n) : (l.take (i + 1)).sum = (l.take i).sum + n := by
  rw [List.take_add_one, h]; simp

theorem aux_ser_pos_mono {start : Nat} {sizes : List Nat} (hp : ∀ n ∈ sizes, 0 < n) {i j : Nat} (hij : i < j)
    (hj : j ≤ sizes.length) : aux_ser_pos start sizes i < aux_ser_pos start sizes j := by
  induction j with
  | zero => omega
  | succ j ih =>
    have hlt : j < sizes.length := by omega
    have hg : sizes[j]? = some sizes[j] := List.getElem?_eq_getElem hlt
    have hs := aux_ser_sum_take hg
    have h0 := hp sizes[j] (List.getElem_mem hlt)
    by_cases he : i = j
    · subst he; simp only [aux_ser_pos, hs]; omega
    · have := ih (by omega) (by omega)
      simp only [aux_ser_pos, hs] at *; omega

/-- The octets waiting are those between the frame due and the end of the stream. -/
theorem aux_ser_octets {start : Nat} {sizes : List Nat} {k : Nat} {log : List SerEvent} {s : Ser}
    (I : aux_ser_SInv start sizes k log s) :
    aux_ser_pos start sizes sizes.length - aux_ser_pos start sizes k = octetsWaiting s := by
  have h1 : octetsWaiting s = ((aux_ser_all s).map (·.size)).sum := by
    simp [octetsWaiting, aux_ser_all, List.sum_append, Function.comp_def]; omega
  have h2 : (aux_ser_all s).map (·.size) = (aux_ser_all s).map (fun f => (sizes[f.id]?).getD 0) := by
    refine List.map_congr_left (fun f hf => ?_)
    rw [(I.is f hf).size]; rfl
  have h3 : ((aux_ser_all s).map (fun f => (sizes[f.id]?).getD 0)) = ((aux_ser_all s).map (·.id)).map (fun i => (sizes[i]?).getD 0) := by
    simp [Function.comp_def]
  have h4 := (I.parts.map (fun i => (sizes[i]?).getD 0)).sum_nat
  rw [h1, h2, h3, h4, I.arrived]
  have hk := I.le
  rw [I.arrived] at hk
  have gen : ∀ (m k : Nat), k + m ≤ sizes.length →
      aux_ser_pos start sizes (k + m) = aux_ser_pos start sizes k + ((List.range' k m).map (fun i => (sizes[i]?).getD 0)).sum := by
    intro m
    induction m with
    | zero => intro k _; simp
    | succ m ih =>
      intro k hle
      have hlt : k < sizes.length := by omega
      have hg : sizes[k]? = some sizes[k] := List.getElem?_eq_getElem hlt
      have hs := aux_ser_sum_take hg
      have := ih (k + 1) (by omega)
      rw [List.range'_succ, List.map_cons, List.sum_cons, hg]
      have e : k + (m + 1) = k + 1 + m := by omega
      rw [e, this]
      simp only [aux_ser_pos, hs, Option.getD_some]
      omega
  have := gen (sizes.length - k) k (by omega)
  have e : k + (sizes.length - k) = sizes.length := by omega
  rw [e] at this
  omega

/-- Frames in flight with the same sequence number are the same. -/
theorem aux_ser_inj {start : Nat} {sizes : List Nat} {k : Nat} {log : List SerEvent} {s : Ser}
    (I : aux_ser_SInv start sizes k log s) (hb : octetsWaiting s ≤ 4294967296) {i j : Nat} (hi : k ≤ i)
    (hij : i < j) (hj : j < sizes.length) :
    aux_ser_pos start sizes i % 4294967296 ≠ aux_ser_pos start sizes j % 4294967296 := by
  have h1 := aux_ser_pos_mono (start := start) I.pos hij (by omega)
  have h2 := aux_ser_pos_mono (start := start) I.pos hj (Nat.le_refl _)
  have h3 : aux_ser_pos start sizes k ≤ aux_ser_pos start sizes i := by
    by_cases h : k = i
    · rw [h]; exact Nat.le_refl _
    · exact Nat.le_of_lt (aux_ser_pos_mono I.pos (by omega) (by omega))
  have h4 := aux_ser_octets I
  intro h
  have : (aux_ser_pos start sizes j - aux_ser_pos start sizes i) % 4294967296 = 0 := by omega
  omega

theorem aux_ser_id_range {start : Nat} {sizes : List Nat} {k : Nat} {log : List SerEvent} {s : Ser}
    (I : aux_ser_SInv start sizes k log s) {f : SFrame} (hf : f ∈ aux_ser_all s) : k ≤ f.id ∧ f.id < sizes.length := by
  have := I.parts.mem_iff.mp (List.mem_map.mpr ⟨f, hf, rfl⟩)
  rw [List.mem_range'_1] at this
  have := I.arrived
  omega

theorem aux_ser_filter_self {α : Type} {l : List α} {p : α → Bool} (h : ∀ x ∈ l, p x = true) : l.filter p = l :=
  List.filter_eq_self.mpr h

theorem aux_ser_perm_filter_ne {h : List SFrame} {g : SFrame} {key : Nat} (hg : g ∈ h) (hk : g.seqno = key)
    (hu : ∀ x ∈ h, x.seqno = key → x.id = g.id) (hn : (h.map (·.id)).Nodup) :
    (h.map (·.id)).Perm (g.id :: (h.filter (fun x => x.seqno != key)).map (·.id)) := by
  induction h with
  | nil => simp at hg
  | cons x h ih =>
    rw [List.map_cons, List.nodup_cons] at hn
    by_cases hx : x.seqno = key
    · have hid := hu x List.mem_cons_self hx
      have hrest : ∀ y ∈ h, (y.seqno != key) = true := by
        intro y hy
        simp only [bne_iff_ne, ne_eq]
        intro hyk
        have := hu y (List.mem_cons_of_mem _ hy) hyk
        exact hn.1 (List.mem_map.mpr ⟨y, hy, by rw [this, hid]⟩)
      rw [List.filter_cons_of_neg (by simpa using hx), aux_ser_filter_self hrest, List.map_cons, hid]
    · have hg' : g ∈ h := by
        rcases List.mem_cons.mp hg with e | e
        · exact absurd (e ▸ hk) hx
        · exact e
      have := ih hg' (fun y hy => hu y (List.mem_cons_of_mem _ hy)) hn.2
      rw [List.filter_cons_of_pos (by simpa using hx), List.map_cons, List.map_cons]
      exact (this.cons _).trans (List.Perm.swap _ _ _)

theorem aux_ser_sstep {start : Nat} {sizes : List Nat} {k : Nat} {log : List SerEvent} {s : Ser}
    (I : aux_ser_SInv start sizes k log s) (hb : octetsWaiting s ≤ 4294967296) (op : SerOp)
    (ha : ∀ n, op = .arrive n → 0 < n) (hc : ∀ n, op ≠ .consumed n) :
    ∃ sizes' k', aux_ser_SInv start sizes' k' (log ++ (s.step op).1) (s.step op).2 := by
  cases op with
  | consumed n => exact absurd rfl (hc n)
  | arrive n =>
    have hle := I.le
    have harr := I.arrived
    have htake : ∀ i, i ≤ sizes.length → aux_ser_pos start (sizes ++ [n]) i = aux_ser_pos start sizes i := by
      intro i hi
      simp only [aux_ser_pos, List.take_append_of_le_length hi]
    refine ⟨sizes ++ [n], k, ?_⟩
    simp only [Ser.step, List.append_nil]
    refine ⟨by simp [harr], ?_, ?_, by simp only; omega, ?_, ?_, ?_, I.turn, I.nothash, I.log⟩
    · simp only [I.seqno, List.sum_append, List.sum_cons, List.sum_nil]; omega
    · intro m hm
      rcases List.mem_append.mp hm with hm | hm
      · exact I.pos m hm
      · rw [List.mem_singleton.mp hm]; exact ha n rfl
    · show s.next = _
      rw [htake k (by omega)]; exact I.next
    · intro f hf
      simp only [aux_ser_all, List.mem_append, List.mem_singleton] at hf
      have hold : f ∈ aux_ser_all s → aux_ser_Is start (sizes ++ [n]) f := by
        intro hf
        have hr := aux_ser_id_range I hf
        refine ⟨?_, ?_⟩
        · rw [htake _ (by omega)]; exact (I.is f hf).seqno
        · rw [List.getElem?_append_left hr.2]; exact (I.is f hf).size
      rcases hf with ((hf | hf) | hf) | hf
      · exact hold (by simp [aux_ser_all, hf])
      · subst hf
        refine ⟨?_, ?_⟩
        · show s.seqno = _
          rw [I.seqno]
          show _ = aux_ser_pos start (sizes ++ [n]) s.arrived % _
          rw [harr, htake _ (Nat.le_refl _)]
          simp [aux_ser_pos]
        · show (sizes ++ [n])[s.arrived]? = some n
          rw [harr]; simp
      · exact hold (by simp only [aux_ser_all, List.mem_append]; exact .inl (.inr hf))
      · exact hold (by simp only [aux_ser_all, List.mem_append]; exact .inr hf)
    · have hp := I.parts
      have e : s.arrived + 1 - k = (s.arrived - k) + 1 := by omega
      show ((aux_ser_all { s with waiting := s.waiting ++ [⟨s.arrived, s.seqno, n⟩], arrived := s.arrived + 1, seqno := (s.seqno + n) % 4294967296 }).map (·.id)).Perm (List.range' k (s.arrived + 1 - k))
      rw [e, List.range'_concat]
      have e2 : k + 1 * (s.arrived - k) = s.arrived := by omega
      rw [e2]
      simp only [aux_ser_all, List.map_append, List.map_cons, List.map_nil, List.append_assoc] at hp ⊢
      refine List.Perm.trans ?_ (hp.append_right _)
      simp only [List.append_assoc]
      refine List.Perm.append_left _ ?_
      refine List.perm_append_comm.trans ?_
      simp
  | check i =>
    simp only [Ser.step]
    split
    · exact ⟨sizes, k, by simpa using I⟩
    · rename_i f hf
      have hmem : f ∈ s.waiting := List.mem_of_getElem? hf
      have hall : f ∈ aux_ser_all s := by simp [aux_ser_all, hmem]
      have hr := aux_ser_id_range I hall
      have hperm : s.waiting.Perm (f :: s.waiting.eraseIdx i) := aux_ser_perm_eraseIdx hf
      have hsub : ∀ x, x ∈ s.waiting.eraseIdx i → x ∈ s.waiting := fun x hx => (List.mem_of_mem_eraseIdx hx)
      have hnd : ((aux_ser_all s).map (·.id)).Nodup := I.parts.nodup_iff.mpr List.nodup_range'
      split
      · -- its turn
        rename_i hseq
        have hid : f.id = k := by
          rcases Nat.lt_or_ge k f.id with h | h
          · have := aux_ser_inj I hb (Nat.le_refl k) h hr.2
            rw [← I.next, ← (I.is f hall).seqno] at this
            exact absurd hseq.symm this
          · omega
        have hcall : s.calling = [] := by
          cases hcl : s.calling with
          | nil => rfl
          | cons c cs =>
            exfalso
            have hck := I.turn c (by simp [hcl])
            simp only [aux_ser_all, List.map_append, List.append_assoc] at hnd
            have := (List.nodup_append.mp hnd).2.2 f.id (List.mem_map.mpr ⟨f, hmem, rfl⟩) c.1.id
              (by simp [hcl])
            omega
        refine ⟨sizes, k, ?_⟩
        simp only [List.append_nil]
        refine ⟨I.arrived, I.seqno, I.pos, I.le, I.next, fun x hx => I.is x ?_, ?_, ?_, I.nothash, ?_⟩
        · simp only [aux_ser_all, hcall, List.nil_append, List.map_cons, List.map_nil, List.mem_append,
            List.mem_singleton] at hx ⊢
          rcases hx with (hx | hx) | hx
          · exact .inl (.inl (hsub x hx))
          · exact .inl (.inl (hx ▸ hmem))
          · exact .inr hx
        · refine List.Perm.trans ?_ I.parts
          simp only [aux_ser_all, hcall, List.nil_append, List.map_cons, List.map_nil, List.map_append,
            List.append_nil]
          refine List.Perm.append_right _ ?_
          refine List.Perm.trans ?_ (hperm.map _).symm
          rw [List.map_cons]
          exact List.perm_append_comm
        · intro c hc
          simp only [hcall, List.nil_append, List.mem_singleton] at hc
          rw [hc]; exact hid
        · refine .inl ?_
          rcases I.log with h | ⟨_, g, hg⟩
          · refine ⟨h.1, fun c hc => ?_⟩
            simp only [hcall, List.nil_append, List.mem_singleton] at hc
            rw [hc]
          · rw [hcall] at hg; simp at hg
      · -- not its turn
        rename_i hseq
        have hid : f.id ≠ k := by
          intro h
          apply hseq
          rw [(I.is f hall).seqno, I.next, h]
        have hkeep : s.hash.filter (fun g => g.seqno != f.seqno) = s.hash := by
          refine aux_ser_filter_self (fun g hg => ?_)
          have hgall : g ∈ aux_ser_all s := by simp [aux_ser_all, hg]
          have hgr := aux_ser_id_range I hgall
          simp only [bne_iff_ne, ne_eq]
          intro he
          rw [(I.is g hgall).seqno, (I.is f hall).seqno] at he
          rcases Nat.lt_trichotomy g.id f.id with h | h | h
          · exact aux_ser_inj I hb hgr.1 h hr.2 he
          · simp only [aux_ser_all, List.map_append, List.append_assoc] at hnd
            exact (List.nodup_append.mp hnd).2.2 f.id (List.mem_map.mpr ⟨f, hmem, rfl⟩) g.id
              (by simp only [List.mem_append]; exact .inr (List.mem_map.mpr ⟨g, hg, rfl⟩)) h.symm
          · exact aux_ser_inj I hb hr.1 h hgr.2 he.symm
        refine ⟨sizes, k, ?_⟩
        simp only [List.append_nil, Ser.insert, hkeep]
        refine ⟨I.arrived, I.seqno, I.pos, I.le, I.next, fun x hx => I.is x ?_, ?_, I.turn, ?_, I.log⟩
        · simp only [aux_ser_all, List.mem_append, List.mem_cons] at hx ⊢
          rcases hx with (hx | hx) | (hx | hx)
          · exact .inl (.inl (hsub x hx))
          · exact .inl (.inr hx)
          · exact .inl (.inl (hx ▸ hmem))
          · exact .inr hx
        · refine List.Perm.trans ?_ I.parts
          simp only [aux_ser_all, List.map_append, List.map_cons]
          refine List.perm_middle.trans ?_
          rw [← List.cons_append, ← List.cons_append]
          refine List.Perm.append_right _ (List.Perm.append_right _ ?_)
          exact (hperm.map _).symm
        · intro g hg
          rcases List.mem_cons.mp hg with hg | hg
          · rw [hg]; exact hid
          · exact I.nothash g hg
  | call i =>
    simp only [Ser.step]
    split
    · rename_i f hf
      have hmem : (f, false) ∈ s.calling := List.mem_of_getElem? hf
      have hid : f.id = k := I.turn _ hmem
      -- only one thread calls
      have hnd : ((aux_ser_all s).map (·.id)).Nodup := I.parts.nodup_iff.mpr List.nodup_range'
      have hone : s.calling = [(f, false)] := by
        simp only [aux_ser_all, List.map_append, List.append_assoc] at hnd
        have hn := (List.nodup_append.mp (List.nodup_append.mp hnd).2.1).1
        have ht := I.turn
        cases hcl : s.calling with
        | nil => rw [hcl] at hmem; simp at hmem
        | cons c cs =>
          rw [hcl] at hmem hn ht
          cases cs with
          | nil => rw [List.mem_singleton.mp hmem]
          | cons d ds =>
            exfalso
            have h1 := ht c (by simp)
            have h2 := ht d (by simp)
            simp only [List.map_cons, List.nodup_cons, List.mem_cons] at hn
            exact hn.1 (.inl (by rw [h1, h2]))
      have hi : i = 0 := by
        rw [hone] at hf
        cases i with
        | zero => rfl
        | succ i => simp at hf
      subst hi
      refine ⟨sizes, k, ?_⟩
      have hset : s.calling.set 0 (f, true) = [(f, true)] := by rw [hone]; rfl
      simp only [hset]
      refine ⟨I.arrived, I.seqno, I.pos, I.le, I.next, fun x hx => I.is x ?_, ?_, ?_, I.nothash, ?_⟩
      · simpa [aux_ser_all, hone] using hx
      · have := I.parts
        simpa [aux_ser_all, hone] using this
      · intro c hc
        rw [List.mem_singleton.mp hc]; exact hid
      · refine .inr ⟨?_, f, rfl⟩
        rcases I.log with h | ⟨_, g, hg⟩
        · rw [h.1, hid]
        · rw [hone] at hg; simp at hg
    · exact ⟨sizes, k, by simpa using I⟩
  | finish i =>
    simp only [Ser.step]
    split
    · rename_i f hf
      have hmem : (f, true) ∈ s.calling := List.mem_of_getElem? hf
      have hid : f.id = k := I.turn _ hmem
      obtain ⟨hlog, hone⟩ : log = inTurn k ++ [.begins k] ∧ s.calling = [(f, true)] := by
        rcases I.log with h | ⟨h, g, hg⟩
        · exact absurd (h.2 _ hmem) (by simp)
        · rw [hg] at hmem
          have := List.mem_singleton.mp hmem
          exact ⟨h, by rw [hg, ← this]⟩
      have hi : i = 0 := by
        rw [hone] at hf
        cases i with
        | zero => rfl
        | succ i => simp at hf
      subst hi
      have hfall : f ∈ aux_ser_all s := by simp [aux_ser_all, hone]
      have hr := aux_ser_id_range I hfall
      have hnext : (f.seqno + f.size) % 4294967296 = aux_ser_pos start sizes (k + 1) % 4294967296 := by
        have hs := (I.is f hfall).size
        rw [hid] at hs
        rw [(I.is f hfall).seqno, hid]
        simp only [aux_ser_pos, aux_ser_sum_take hs]
        omega
      have hnd : ((aux_ser_all s).map (·.id)).Nodup := I.parts.nodup_iff.mpr List.nodup_range'
      have hrest : ((s.waiting ++ s.hash).map (·.id)).Perm (List.range' (k + 1) (s.arrived - (k + 1))) := by
        have hp := I.parts
        have e : s.arrived - k = (s.arrived - (k + 1)) + 1 := by rw [I.arrived]; omega
        rw [e, List.range'_succ] at hp
        have hq : ((aux_ser_all s).map (·.id)).Perm (f.id :: (s.waiting ++ s.hash).map (·.id)) := by
          simp only [aux_ser_all, hone, List.map_append, List.map_cons, List.map_nil, List.append_assoc,
            List.singleton_append]
          exact List.perm_middle
        have := hq.symm.trans hp
        rw [hid] at this
        exact List.Perm.cons_inv this
      have hlog' : log ++ [SerEvent.ends f.id] = inTurn (k + 1) := by
        rw [hlog, hid, inTurn]; simp
      have hmemall : ∀ x, x ∈ s.waiting ++ s.hash → x ∈ aux_ser_all s := by
        intro x hx
        simp only [aux_ser_all, List.mem_append] at hx ⊢
        rcases hx with hx | hx
        · exact .inl (.inl hx)
        · exact .inr hx
      have hidrest : ∀ x ∈ s.waiting ++ s.hash, k + 1 ≤ x.id ∧ x.id < sizes.length := by
        intro x hx
        have := hrest.mem_iff.mp (List.mem_map.mpr ⟨x, hx, rfl⟩)
        rw [List.mem_range'_1, I.arrived] at this
        omega
      have huniq : ∀ x ∈ s.hash, x.seqno = (f.seqno + f.size) % 4294967296 → x.id = k + 1 := by
        intro x hx hxs
        have hxr := hidrest x (List.mem_append_right _ hx)
        rw [hnext, (I.is x (hmemall x (List.mem_append_right _ hx))).seqno] at hxs
        rcases Nat.lt_or_ge (k + 1) x.id with h | h
        · exact absurd hxs.symm (aux_ser_inj I hb (by omega) h hxr.2)
        · omega
      split
      · -- the next one is there
        rename_i g hg
        have hgm : g ∈ s.hash := List.mem_of_find?_eq_some hg
        have hgs : g.seqno = (f.seqno + f.size) % 4294967296 := by simpa using List.find?_some hg
        have hgid := huniq g hgm hgs
        refine ⟨sizes, k + 1, ?_⟩
        have hset : s.calling.set 0 (g, false) = [(g, false)] := by rw [hone]; rfl
        simp only [hset, hlog']
        have hnh : ((s.hash).map (·.id)).Nodup := by
          simp only [aux_ser_all, List.map_append] at hnd
          exact (List.nodup_append.mp hnd).2.1
        have hhp := aux_ser_perm_filter_ne hgm hgs (fun x hx hxs => by rw [huniq x hx hxs, hgid]) hnh
        refine ⟨I.arrived, I.seqno, I.pos, ?_, hnext, fun x hx => I.is x (hmemall x ?_), ?_, ?_, ?_, ?_⟩
        · show k + 1 ≤ s.arrived
          rw [I.arrived]; omega
        · simp only [aux_ser_all, List.map_cons, List.map_nil, List.mem_append, List.mem_singleton] at hx ⊢
          rcases hx with (hx | hx) | hx
          · exact .inl hx
          · exact .inr (hx ▸ hgm)
          · exact .inr (List.mem_filter.mp hx).1
        · refine List.Perm.trans ?_ hrest
          simp only [aux_ser_all, List.map_cons, List.map_nil, List.map_append, List.append_assoc,
            List.singleton_append]
          exact List.Perm.append_left _ hhp.symm
        · intro c hc
          rw [List.mem_singleton.mp hc]; exact hgid
        · intro x hx hxk
          obtain ⟨hx1, hx2⟩ := List.mem_filter.mp hx
          simp only [bne_iff_ne, ne_eq] at hx2
          apply hx2
          rw [hnext, (I.is x (hmemall x (List.mem_append_right _ hx1))).seqno, hxk]
        · refine .inl ⟨rfl, fun c hc => ?_⟩
          rw [List.mem_singleton.mp hc]
      · rename_i hn
        refine ⟨sizes, k + 1, ?_⟩
        have hset : s.calling.eraseIdx 0 = [] := by rw [hone]; rfl
        simp only [hset, hlog']
        refine ⟨I.arrived, I.seqno, I.pos, ?_, hnext, fun x hx => I.is x (hmemall x ?_), ?_, by simp, ?_, ?_⟩
        · show k + 1 ≤ s.arrived
          rw [I.arrived]; omega
        · simpa [aux_ser_all] using hx
        · simpa [aux_ser_all] using hrest
        · intro x hx hxk
          have := List.find?_eq_none.mp hn x hx
          apply this
          simp only [beq_iff_eq]
          rw [hnext, (I.is x (hmemall x (List.mem_append_right _ hx))).seqno, hxk]
        · exact .inl ⟨rfl, by simp⟩
    · exact ⟨sizes, k, by simpa using I⟩

theorem aux_ser_srun (start : Nat) (ops : List SerOp) : ∀ (sizes : List Nat) (k : Nat) (log : List SerEvent) (s : Ser),
    aux_ser_SInv start sizes k log s → Plain s ops →
    ∃ sizes' k', aux_ser_SInv start sizes' k' (log ++ (s.run ops).1) (s.run ops).2 := by
  induction ops with
  | nil => intro sizes k log s I _; exact ⟨sizes, k, by simpa [Ser.run] using I⟩
  | cons op ops ih =>
    intro sizes k log s I hp
    obtain ⟨h1, h2, h3, h4⟩ := hp
    obtain ⟨sizes', k', I'⟩ := aux_ser_sstep I h1 op h2 h3
    obtain ⟨s'', k'', I''⟩ := ih _ _ _ _ I' h4
    exact ⟨s'', k'', by simpa [Ser.run] using I''⟩

/-- C19, the part that holds: any number of frames with content, any schedule of threads, any starting sequence
number (wrapping included). Missing: empty frames (`C19_empty_frame`, `C19_frame_lost`) and replies taken by
waiting threads (`C19_after_wait_reply`). -/
theorem C19_serialized_partial (last : Nat) (ops : List SerOp) (hl : last < 4294967296)
    (hp : Plain (Ser.init last) ops) :
    InOrder ((Ser.init last).run ops).1 ((Ser.init last).run ops).2.arrived ∧
    (Idle ((Ser.init last).run ops).2 → ((Ser.init last).run ops).1 = inTurn ((Ser.init last).run ops).2.arrived) := by
  have h0 : aux_ser_SInv last [] 0 [] (Ser.init last) := by
    refine ⟨rfl, ?_, by simp, Nat.le_refl _, ?_, ?_, ?_, by simp [Ser.init], by simp [Ser.init], .inl ⟨rfl, by simp [Ser.init]⟩⟩
    · simp only [Ser.init, List.sum_nil]; omega
    · simp only [Ser.init, aux_ser_pos, List.take_nil, List.sum_nil]; omega
    · intro f hf; simp [aux_ser_all, Ser.init] at hf
    · simp [aux_ser_all, Ser.init]
  obtain ⟨sizes, k, I⟩ := aux_ser_srun last ops [] 0 [] _ h0 hp
  rw [List.nil_append] at I
  refine ⟨⟨k, I.le, ?_⟩, fun hid => ?_⟩
  · rcases I.log with h | ⟨h, f, hf⟩
    · exact .inl h.1
    · refine .inr ⟨?_, h⟩
      have hr := aux_ser_id_range I (f := f) (by simp [aux_ser_all, hf])
      have := I.turn (f, true) (by simp [hf])
      rw [I.arrived]
      simp only at this
      omega
  · obtain ⟨hw, hc⟩ := hid
    rcases I.log with h | ⟨_, f, hf⟩
    · rw [h.1]
      congr 1
      rcases Nat.lt_or_ge k ((Ser.init last).run ops).2.arrived with hlt | hge
      · exfalso
        -- frame k would be in the hash
        have hm : k ∈ (aux_ser_all ((Ser.init last).run ops).2).map (·.id) := by
          refine I.parts.mem_iff.mpr ?_
          rw [List.mem_range'_1]; omega
        simp only [aux_ser_all, hw, hc, List.map_nil, List.nil_append] at hm
        obtain ⟨f, hf, hfk⟩ := List.mem_map.mp hm
        exact I.nothash f hf hfk
      · have := I.le; omega
    · rw [hc] at hf; simp at hf

/-- Three frames picked up in reverse order, near the end of the sequence numbers. -/
example : ((Ser.init 4294967290).run [.arrive 4, .arrive 5, .arrive 6, .check 2, .check 1, .check 0, .call 0, .finish 0,
    .call 0, .finish 0, .call 0, .finish 0]).1 = inTurn 3 := by decide +kernel
example : Plain (Ser.init 4294967290) [.arrive 4, .arrive 5, .arrive 6, .check 2, .check 1, .check 0, .call 0] := by
  refine ⟨by decide +kernel, ?_, ?_, by decide +kernel, ?_, ?_, by decide +kernel, ?_, ?_, by decide +kernel, ?_, ?_,
    by decide +kernel, ?_, ?_, by decide +kernel, ?_, ?_, by decide +kernel, ?_, ?_,
    (by show octetsWaiting _ ≤ _; decide +kernel)⟩ <;>
    intro n <;> (try intro h) <;> (try cases h) <;> first | decide | simp

end Verif.Props
