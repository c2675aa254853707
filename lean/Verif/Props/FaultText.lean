import Verif.Spec.FaultText
/-!
# C108: fault strings of XML-RPC replies
-/
namespace Verif.Props
open Verif.Model Verif.Spec

theorem aux_fs_release_data (s : FaultChan) (c : Nat) : (s.release c).data = s.data := by
  unfold FaultChan.release
  split
  · rfl
  · split <;> rfl

theorem aux_fs_drop_data (s : FaultChan) (e : FaultEntry) : (s.drop e).data = s.data := by
  unfold FaultChan.drop
  split
  · rfl
  · exact aux_fs_release_data _ _

theorem aux_fs_store_data (s : FaultChan) (e : FaultEntry) : (s.store e).data = e :: s.data.filter (fun x => decide (x.key ≠ e.key)) := by
  unfold FaultChan.store
  simp only
  split
  · rfl
  · rw [aux_fs_drop_data]

theorem aux_fs_find_filter (k k' : List Byte) (h : k' ≠ k) : ∀ l : List FaultEntry,
    (l.filter (fun x => decide (x.key ≠ k'))).find? (fun x => decide (x.key = k)) = l.find? (fun x => decide (x.key = k))
  | [] => rfl
  | e :: l => by
    rw [List.filter_cons]
    by_cases hk : e.key = k
    · have : decide (e.key ≠ k') = true := decide_eq_true (fun h' => h (h'.symm.trans hk))
      rw [if_pos this, List.find?_cons_of_pos (by simpa using hk), List.find?_cons_of_pos (by simpa using hk)]
    · rw [List.find?_cons_of_neg (by simpa using hk)]
      by_cases hk' : e.key = k'
      · rw [if_neg (by simpa using hk')]; exact aux_fs_find_filter k k' h l
      · rw [if_pos (by simpa using hk'), List.find?_cons_of_neg (by simpa using hk)]; exact aux_fs_find_filter k k' h l

theorem aux_fs_get_store_other (s : FaultChan) (e : FaultEntry) (k : List Byte) (h : e.key ≠ k) : (s.store e).get k = s.get k := by
  unfold FaultChan.get
  rw [aux_fs_store_data, List.find?_cons_of_neg (by simpa using h), aux_fs_find_filter k e.key h]

theorem aux_fs_get_store_same (s : FaultChan) (e : FaultEntry) : (s.store e).get e.key = some e.value := by
  unfold FaultChan.get
  rw [aux_fs_store_data, List.find?_cons_of_pos (by simp)]
  rfl

/-- The full property: a caller that keeps to the documentation never meets memory released, and data stored with the channel is what was
stored. -/
def C108_statement : Prop :=
  ∀ ops, faultDocumented [] 0 ops →
    (faultRun ops).bad = false ∧
    (FaultOp.close ∉ ops → ∀ k, (faultRun ops).get k = (faultStored k none ops).map FaultValue.data)

theorem aux_fs_get (k : List Byte) : ∀ (ops : List FaultOp) (s : FaultChan) (v : Option Nat), FaultOp.close ∉ ops → k ∉ faultTexts ops →
    s.get k = v.map FaultValue.data → (ops.foldl FaultChan.step s).get k = (faultStored k v ops).map FaultValue.data
  | [], _, _, _, _, h => h
  | op :: r, s, v, hc, ht, h => by
    have hc' : FaultOp.close ∉ r := fun hm => hc (List.mem_cons_of_mem _ hm)
    have rel : ∀ c, (s.release c).get k = s.get k := fun c => by unfold FaultChan.get; rw [aux_fs_release_data]
    rw [List.foldl_cons]
    cases op with
    | fault t =>
      simp only [faultTexts, List.mem_cons, not_or] at ht
      refine aux_fs_get k r _ v hc' ht.2 ?_
      simp only [FaultChan.step]
      rw [aux_fs_get_store_other _ _ _ (Ne.symm ht.1)]
      exact h
    | use c =>
      refine aux_fs_get k r _ v hc' ht ?_
      simp only [FaultChan.step]
      split
      · exact h
      · split <;> exact h
    | free c =>
      refine aux_fs_get k r _ v hc' ht ?_
      simp only [FaultChan.step]
      rw [rel]; exact h
    | set k' n =>
      refine aux_fs_get k r _ _ hc' ht ?_
      simp only [FaultChan.step]
      by_cases hk : k' = k
      · subst hk
        rw [if_pos rfl]
        exact aux_fs_get_store_same _ ⟨k', none, .data n⟩
      · rw [if_neg hk, aux_fs_get_store_other _ _ _ hk]; exact h
    | unset k' =>
      refine aux_fs_get k r _ _ hc' ht ?_
      have hd : ((s.step (.unset k')).data) = s.data.filter (fun x => decide (x.key ≠ k')) := by
        simp only [FaultChan.step]
        split
        · rfl
        · rw [aux_fs_drop_data]
      unfold FaultChan.get
      rw [hd]
      by_cases hk : k' = k
      · subst hk
        rw [if_pos rfl]
        have : (s.data.filter (fun x => decide (x.key ≠ k'))).find? (fun x => decide (x.key = k')) = none := by
          rw [List.find?_eq_none]
          intro x hx
          have := (List.mem_filter.mp hx).2
          simpa using this
        rw [this]; rfl
      · rw [if_neg hk, aux_fs_find_filter k k' hk]; exact h
    | close => exact absurd (by simp) hc

/-- Data stored under a key that no fault string of a reply is equal to is found as it was stored. What is missing: `C108_overwrites`. -/
theorem C108_data_partial (ops : List FaultOp) (hc : FaultOp.close ∉ ops) (k : List Byte) (hk : k ∉ faultTexts ops) :
    (faultRun ops).get k = (faultStored k none ops).map FaultValue.data :=
  aux_fs_get k ops {} none hc hk rfl

/-- What holds as long as no string is released by the caller and no two keys are equal. -/
structure aux_fs_inv (T K : List (List Byte)) (s : FaultChan) : Prop where
  bad : s.bad = false
  live : ∀ x ∈ s.cells, x.live = true
  nodup : (s.data.filterMap (·.own)).Nodup
  all : ∀ c, c ∈ s.data.filterMap (·.own) ↔ c < s.cells.length
  keys : ∀ e ∈ s.data, (e.own = none ∧ e.key ∈ K) ∨ e.key ∈ T

theorem aux_fs_find_none {l : List FaultEntry} {k : List Byte} (h : ∀ e ∈ l, e.key ≠ k) :
    l.find? (fun x => decide (x.key = k)) = none ∧ l.filter (fun x => decide (x.key ≠ k)) = l := by
  constructor
  · rw [List.find?_eq_none]; intro x hx; simpa using h x hx
  · rw [List.filter_eq_self]; intro x hx; simpa using h x hx

theorem aux_fs_filter_own (k : List Byte) : ∀ l : List FaultEntry, (∀ e ∈ l, e.key = k → e.own = none) →
    (l.filter (fun x => decide (x.key ≠ k))).filterMap (·.own) = l.filterMap (·.own)
  | [], _ => rfl
  | e :: l, h => by
    have ih := aux_fs_filter_own k l (fun x hx => h x (List.mem_cons_of_mem _ hx))
    rw [List.filter_cons]
    by_cases hk : e.key = k
    · rw [if_neg (by simpa using hk), ih, List.filterMap_cons, h e (by simp) hk]
    · rw [if_pos (by simpa using hk), List.filterMap_cons, List.filterMap_cons, ih]

theorem aux_fs_removed {T K : List (List Byte)} {s : FaultChan} (h : aux_fs_inv T K s) {k : List Byte} (hk : k ∉ T) (l : List FaultEntry)
    (hl : l.filterMap (·.own) = []) (hkeys : ∀ e ∈ l, e.own = none ∧ e.key ∈ K) :
    aux_fs_inv T K { s with data := l ++ s.data.filter (fun x => decide (x.key ≠ k)) } := by
  have hown : ∀ e ∈ s.data, e.key = k → e.own = none := by
    intro e he hek
    rcases h.keys e he with ⟨h1, _⟩ | h1
    · exact h1
    · exact absurd (hek ▸ h1) hk
  have e : (l ++ s.data.filter (fun x => decide (x.key ≠ k))).filterMap (·.own) = s.data.filterMap (·.own) := by
    rw [List.filterMap_append, hl, List.nil_append, aux_fs_filter_own k _ hown]
  refine ⟨h.bad, h.live, ?_, ?_, ?_⟩
  · simp only; rw [e]; exact h.nodup
  · intro c; simp only; rw [e]; exact h.all c
  · intro x hx
    rcases List.mem_append.mp hx with hx | hx
    · exact .inl (hkeys x hx)
    · exact h.keys x (List.mem_filter.mp hx).1

theorem aux_fs_drop_none {s : FaultChan} {T K : List (List Byte)} (h : aux_fs_inv T K s) {k : List Byte} (hk : k ∉ T) (x : FaultEntry)
    (hf : s.data.find? (fun x => decide (x.key = k)) = some x) (s1 : FaultChan) : s1.drop x = s1 := by
  have hx := List.mem_of_find?_eq_some hf
  have hkx : x.key = k := by simpa using List.find?_some hf
  rcases h.keys x hx with ⟨h1, _⟩ | h1
  · simp only [FaultChan.drop, h1]
  · exact absurd (hkx ▸ h1) hk

theorem aux_fs_run (K : List (List Byte)) : ∀ (ops : List FaultOp) (s : FaultChan) (T : List (List Byte)), aux_fs_inv T K s →
    faultWary s.cells.length ops → (faultTexts ops).Nodup → (∀ t ∈ faultTexts ops, t ∉ T ∧ t ∉ K) → (∀ k ∈ faultKeys ops, k ∈ K) →
    (∀ k ∈ K, k ∉ T) → aux_fs_inv (T ++ faultTexts ops) K (ops.foldl FaultChan.step s) ∧
      (ops.foldl FaultChan.step s).cells.length = s.cells.length + (faultTexts ops).length
  | [], s, T, h, _, _, _, _, _ => by simpa [faultTexts] using h
  | op :: r, s, T, h, hw, hn, ht, hk, hkt => by
    rw [List.foldl_cons]
    cases op with
    | fault t =>
      simp only [faultTexts, List.nodup_cons] at hn
      obtain ⟨htT, htK⟩ := ht t (by simp [faultTexts])
      have hne : ∀ e ∈ s.data, e.key ≠ t := by
        intro e he hek
        rcases h.keys e he with ⟨_, h1⟩ | h1
        · exact htK (hek ▸ h1)
        · exact htT (hek ▸ h1)
      obtain ⟨f1, f2⟩ := aux_fs_find_none hne
      have es : s.step (.fault t) = { s with cells := s.cells ++ [⟨t, true⟩], data := ⟨t, some s.cells.length, .text s.cells.length⟩ :: s.data } := by
        simp only [FaultChan.step, FaultChan.store, f1, f2]
      have hinv : aux_fs_inv (T ++ [t]) K (s.step (.fault t)) := by
        rw [es]
        refine ⟨h.bad, ?_, ?_, ?_, ?_⟩
        · intro x hx
          rcases List.mem_append.mp hx with hx | hx
          · exact h.live x hx
          · rw [List.mem_singleton.mp hx]
        · simp only [List.filterMap_cons]
          refine List.nodup_cons.mpr ⟨fun hm => ?_, h.nodup⟩
          exact absurd ((h.all _).mp hm) (by omega)
        · intro c
          simp only [List.filterMap_cons, List.mem_cons, List.length_append, List.length_singleton]
          rw [h.all c]; omega
        · intro e he
          rcases List.mem_cons.mp he with he | he
          · right; rw [he]; simp
          · rcases h.keys e he with h1 | h1
            · exact .inl h1
            · exact .inr (List.mem_append_left _ h1)
      have hl : (s.step (.fault t)).cells.length = s.cells.length + 1 := by rw [es]; simp
      have := aux_fs_run K r _ _ hinv (by rw [hl]; exact hw) hn.2 (by
        intro u hu
        obtain ⟨u1, u2⟩ := ht u (by simp [faultTexts, hu])
        refine ⟨fun hm => ?_, u2⟩
        rcases List.mem_append.mp hm with hm | hm
        · exact u1 hm
        · exact hn.1 ((List.mem_singleton.mp hm) ▸ hu)) hk (by
        intro k hkK hm
        rcases List.mem_append.mp hm with hm | hm
        · exact hkt k hkK hm
        · exact htK ((List.mem_singleton.mp hm) ▸ hkK))
      refine ⟨by simpa [faultTexts] using this.1, ?_⟩
      rw [this.2, hl]; simp only [faultTexts, List.length_cons]; omega
    | use c =>
      have es : s.step (.use c) = s := by
        have hc : c < s.cells.length := hw.1
        simp only [FaultChan.step]
        rw [List.getElem?_eq_getElem hc]
        simp only
        rw [if_pos (h.live _ (List.getElem_mem hc))]
      rw [es]
      exact aux_fs_run K r s T h hw.2 hn ht hk hkt
    | free c => exact absurd hw (by simp [faultWary])
    | set k n =>
      have hkK := hk k (by simp [faultKeys])
      have es : s.step (.set k n) = { s with data := [⟨k, none, .data n⟩] ++ s.data.filter (fun x => decide (x.key ≠ k)) } := by
        simp only [FaultChan.step, FaultChan.store]
        split
        · rfl
        · rename_i x hx
          rw [aux_fs_drop_none h (hkt k hkK) x hx]; rfl
      rw [es]
      refine aux_fs_run K r _ T (aux_fs_removed h (hkt k hkK) _ (by simp) (by simp [hkK])) hw hn ht (fun x hx => hk x (by simp [faultKeys, hx])) hkt
    | unset k =>
      have hkK := hk k (by simp [faultKeys])
      have es : s.step (.unset k) = { s with data := [] ++ s.data.filter (fun x => decide (x.key ≠ k)) } := by
        simp only [FaultChan.step]
        split
        · rfl
        · rename_i x hx
          rw [aux_fs_drop_none h (hkt k hkK) x hx]; rfl
      rw [es]
      refine aux_fs_run K r _ T (aux_fs_removed h (hkt k hkK) _ (by simp) (by simp)) hw hn ht (fun x hx => hk x (by simp [faultKeys, hx])) hkt
    | close => exact absurd hw (by simp [faultWary])

theorem aux_fs_dead (c : Nat) : ∀ (l : List FaultEntry) (s : FaultChan), (∀ x, s.cells[c]? = some x → x.live = false) →
    ∀ x, (l.foldl FaultChan.drop s).cells[c]? = some x → x.live = false
  | [], _, h => h
  | e :: l, s, h => by
    refine aux_fs_dead c l _ ?_
    intro x hx
    cases ho : e.own with
    | none => simp only [FaultChan.drop, ho] at hx; exact h x hx
    | some d =>
      simp only [FaultChan.drop, ho, FaultChan.release] at hx
      split at hx
      · exact h x hx
      · split at hx
        · rename_i y hy hl
          by_cases hcd : d = c
          · subst hcd
            rw [List.getElem?_set_self (List.getElem?_eq_some_iff.mp hy).1] at hx
            cases hx; rfl
          · rw [List.getElem?_set_ne hcd] at hx; exact h x hx
        · exact h x hx

theorem aux_fs_closed : ∀ (l : List FaultEntry) (s : FaultChan), s.bad = false → (l.filterMap (·.own)).Nodup →
    (∀ c ∈ l.filterMap (·.own), ∃ x, s.cells[c]? = some x ∧ x.live = true) →
    (l.foldl FaultChan.drop s).bad = false ∧
    ∀ c ∈ l.filterMap (·.own), ∀ x, (l.foldl FaultChan.drop s).cells[c]? = some x → x.live = false
  | [], s, hb, _, _ => ⟨hb, by simp⟩
  | e :: l, s, hb, hn, hl => by
    rw [List.foldl_cons]
    cases ho : e.own with
    | none =>
      have es : s.drop e = s := by simp only [FaultChan.drop, ho]
      rw [es]
      simp only [List.filterMap_cons, ho] at hn hl ⊢
      exact aux_fs_closed l s hb hn hl
    | some d =>
      simp only [List.filterMap_cons, ho] at hn hl ⊢
      obtain ⟨y, hy, hyl⟩ := hl d (by simp)
      have es : s.drop e = { s with cells := s.cells.set d { y with live := false } } := by
        simp only [FaultChan.drop, ho, FaultChan.release, hy]
        rw [if_pos hyl]
      obtain ⟨hn1, hn2⟩ := List.nodup_cons.mp hn
      have hlt := (List.getElem?_eq_some_iff.mp hy).1
      rw [es]
      have ih := aux_fs_closed l { s with cells := s.cells.set d { y with live := false } } hb hn2 (by
        intro c hc
        obtain ⟨x, hx, hxl⟩ := hl c (List.mem_cons_of_mem _ hc)
        have hcd : d ≠ c := fun h => hn1 (h ▸ hc)
        exact ⟨x, by simp only; rw [List.getElem?_set_ne hcd]; exact hx, hxl⟩)
      refine ⟨ih.1, ?_⟩
      intro c hc
      rcases List.mem_cons.mp hc with hc | hc
      · subst hc
        refine aux_fs_dead c l _ ?_
        intro x hx
        simp only at hx
        rw [List.getElem?_set_self hlt] at hx
        cases hx; rfl
      · exact ih.2 c hc

/-- A caller that never releases a fault string, against the documentation, and gets no fault string twice and none equal to a key in use, is
safe: no memory is used after it was released, the strings stay until the channel is closed, and are released then. What is missing:
`C108_double`, `C108_twice`. -/
theorem C108_memory_partial (ops : List FaultOp) (hw : faultWary 0 ops) (hn : (faultTexts ops).Nodup)
    (hk : ∀ t ∈ faultTexts ops, t ∉ faultKeys ops) :
    (faultRun ops).bad = false ∧ (∀ x ∈ (faultRun ops).cells, x.live = true) ∧ (faultRun ops).cells.length = (faultTexts ops).length ∧
    (faultRun (ops ++ [.close])).bad = false ∧ ∀ x ∈ (faultRun (ops ++ [.close])).cells, x.live = false := by
  have h0 : aux_fs_inv [] (faultKeys ops) {} := ⟨rfl, by simp, by simp, by simp, by simp⟩
  obtain ⟨h, hlen⟩ := aux_fs_run (faultKeys ops) ops {} [] h0 hw hn (fun t ht => ⟨by simp, hk t ht⟩) (fun k hk => hk) (by simp)
  have er : faultRun (ops ++ [.close]) = (faultRun ops).data.foldl FaultChan.drop { faultRun ops with data := [] } := by
    unfold faultRun
    rw [List.foldl_append]
    simp only [List.foldl_cons, List.foldl_nil, FaultChan.step]
  obtain ⟨c1, c2⟩ := aux_fs_closed (faultRun ops).data { faultRun ops with data := [] } h.bad h.nodup (by
    intro c hc
    have hc' := (h.all c).mp hc
    exact ⟨_, List.getElem?_eq_getElem hc', h.live _ (List.getElem_mem hc')⟩)
  have hl : ∀ (l : List FaultEntry) (s : FaultChan), (l.foldl FaultChan.drop s).cells.length = s.cells.length := by
    intro l
    induction l with
    | nil => intro s; rfl
    | cons e l ih =>
      intro s
      rw [List.foldl_cons, ih]
      unfold FaultChan.drop FaultChan.release
      split
      · rfl
      · split
        · rfl
        · split <;> simp
  refine ⟨h.bad, h.live, by simpa [faultRun] using hlen, by rw [er]; exact c1, ?_⟩
  rw [er]
  intro x hx
  obtain ⟨c, hc, rfl⟩ := List.getElem_of_mem hx
  refine c2 c ((h.all c).mpr ?_) _ (List.getElem?_eq_getElem hc)
  have := hl (faultRun ops).data { faultRun ops with data := [] }
  simp only at this
  rw [this] at hc
  exact hc

example : faultWary 0 [.set (lit "user") 7, .fault (lit "no such item"), .use 0, .fault (lit "try later"), .use 0, .unset (lit "user")] ∧
    (faultTexts [.set (lit "user") 7, .fault (lit "no such item"), .use 0, .fault (lit "try later"), .use 0, .unset (lit "user")]).Nodup := by
  refine ⟨by simp [faultWary], by simp only [faultTexts]; decide⟩

/-- Whatever happened before: a reply with a fault string equal to a key replaces what is stored under this key by the fault string. The peer
chooses the string. -/
theorem C108_overwrites (ops : List FaultOp) (k : List Byte) :
    ∃ c, (faultRun (ops ++ [.fault k])).get k = some (.text c) := by
  refine ⟨(faultRun ops).cells.length, ?_⟩
  unfold faultRun
  rw [List.foldl_append]
  simp only [List.foldl_cons, List.foldl_nil, FaultChan.step]
  exact aux_fs_get_store_same _ ⟨k, some _, .text _⟩

/-- So the flag that tells the sequencer that the channel was removed (src/vortex_sequencer.c:545, 610, 898) is set by a peer. -/
example : (faultRun [.fault (lit "vo:seq:del")]).get (lit "vo:seq:del") ≠ none := by
  obtain ⟨c, h⟩ := C108_overwrites [] (lit "vo:seq:del")
  rw [List.nil_append] at h
  rw [h]; simp

/-- Released by the caller, as documented, the string is released again with the channel. -/
theorem C108_double (t : List Byte) :
    faultDocumented [] 0 [.fault t, .use 0, .free 0, .close] ∧ (faultRun [.fault t, .use 0, .free 0]).bad = false ∧
    (faultRun [.fault t, .use 0, .free 0, .close]).bad = true := by
  refine ⟨by simp [faultDocumented], by simp [faultRun, FaultChan.step, FaultChan.store, FaultChan.release], ?_⟩
  simp [faultRun, FaultChan.step, FaultChan.store, FaultChan.release, FaultChan.drop]

/-- A second fault with an equal string releases the first one, still in use. -/
theorem C108_twice (t : List Byte) :
    faultDocumented [] 0 [.fault t, .fault t, .use 0] ∧ (faultRun [.fault t, .fault t]).bad = false ∧ (faultRun [.fault t, .fault t, .use 0]).bad = true := by
  refine ⟨by simp [faultDocumented], ?_, ?_⟩
  · simp [faultRun, FaultChan.step, FaultChan.store, FaultChan.release, FaultChan.drop]
  · simp [faultRun, FaultChan.step, FaultChan.store, FaultChan.release, FaultChan.drop]

theorem C108_statement_false : ¬ C108_statement := by
  intro h
  have := (h _ (C108_double []).1).1
  rw [(C108_double []).2.2] at this
  cases this

end Verif.Props
