import Verif.Spec.ChanCreate
/-! C88: a channel is created if and only if the peer accepted it. C89: a call to create a channel is answered once and leaves nothing else. -/
namespace Verif.Props
open Verif.Model Verif.Spec

/-! ## C88 -/

/-- C88, full: of the answers received in a context, in any order, exactly those make a channel that accept the profile asked for, and the
piggyback is the content the peer sent; and threads that check answers never use memory that was released. False of the code. -/
def C88_statement : Prop :=
  (∀ parse hist (i : Nat) q r (c : StartCheck), hist[i]? = some (q, r) → (validateAll parse [] hist).1[i]? = some c →
    (c.result = true ↔ StartAccepted parse q r) ∧ (c.result = true → c.piggyback = startContent parse r)) ∧
  (∀ sched, StartCacheUse.init.run sched ≠ none)

/-- C88: an answer that accepts the profile asked for always makes the channel, whatever was received before. -/
theorem C88_accepted (parse : List UInt8 → Option StartDoc) (cache : StartCache) (q : String) (r : StartReply)
    (h : StartAccepted parse q r) : (validateStart parse cache q r).1.result = true := by
  obtain ⟨hk, c, hp⟩ := h
  simp only [validateStart]
  cases cache.lookup (startKey r.payload) with
  | some x => rfl
  | none => simp [hp, hk]

example : StartAccepted (fun _ => some (.profile (some "u") none)) "u" ⟨.rpy, [60]⟩ := ⟨rfl, none, rfl⟩

/-- Where an entry of the cache comes from. -/
theorem aux_cr_entry (parse : List UInt8 → Option StartDoc) (cache : StartCache) (q : String) (r : StartReply) (k : List UInt8)
    (h : (validateStart parse cache q r).2.lookup k ≠ none) :
    cache.lookup k ≠ none ∨ (r.kind = .rpy ∧ startKey r.payload = k ∧ ∃ u c, parse r.payload = some (.profile u c)) := by
  simp only [validateStart] at h
  cases hl : cache.lookup (startKey r.payload) with
  | some x => rw [hl] at h; exact .inl h
  | none =>
    rw [hl] at h
    cases hp : parse r.payload with
    | none => rw [hp] at h; exact .inl h
    | some d =>
      rw [hp] at h
      simp only at h
      split at h
      · exact .inl h
      · next hk =>
        have hk : r.kind = .rpy := by simpa using hk
        cases d with
        | profile u c =>
          by_cases hkk : startKey r.payload = k
          · exact .inr ⟨hk, hkk, u, c, rfl⟩
          · left
            have hne : (k == startKey r.payload) = false := by simpa using fun e => hkk e.symm
            simp only at h
            split at h <;> simpa [List.lookup_cons, hne] using h
        | error _ _ => exact .inl h
        | other => exact .inl h

theorem aux_cr_seen (parse : List UInt8 → Option StartDoc) (hist : List (String × StartReply)) : ∀ (cache : StartCache) (i : Nat) (c : StartCheck),
    (validateAll parse cache hist).1[i]? = some c → c.result = true →
    ∃ q r, hist[i]? = some (q, r) ∧ (cache.lookup (startKey r.payload) ≠ none ∨
      ∃ j q' r', j ≤ i ∧ hist[j]? = some (q', r') ∧ startKey r'.payload = startKey r.payload ∧ r'.kind = .rpy ∧
        ∃ u d, parse r'.payload = some (.profile u d)) := by
  induction hist with
  | nil => intro cache i c h; simp [validateAll] at h
  | cons x rest ih =>
    obtain ⟨q, r⟩ := x
    intro cache i c h hc
    simp only [validateAll] at h
    cases i with
    | zero =>
      simp only [List.getElem?_cons_zero, Option.some.injEq] at h
      refine ⟨q, r, by simp, ?_⟩
      cases hl : cache.lookup (startKey r.payload) with
      | some y => exact .inl (by simp)
      | none =>
        right
        refine ⟨0, q, r, Nat.le_refl _, by simp, rfl, ?_⟩
        rw [← h] at hc
        simp only [validateStart, hl] at hc
        cases hp : parse r.payload with
        | none => rw [hp] at hc; simp at hc
        | some d =>
          rw [hp] at hc
          simp only at hc
          split at hc
          · simp at hc
          · next hk =>
            cases d with
            | profile u d => exact ⟨by simpa using hk, u, d, rfl⟩
            | error _ _ => simp at hc
            | other => simp at hc
    | succ n =>
      simp only [List.getElem?_cons_succ] at h
      obtain ⟨q2, r2, h2, h3⟩ := ih _ n c h hc
      refine ⟨q2, r2, by simpa using h2, ?_⟩
      rcases h3 with h3 | ⟨j, q', r', hj, hr, hrest⟩
      · rcases aux_cr_entry parse cache q r _ h3 with h4 | ⟨hk, hkk, hp⟩
        · exact .inl h4
        · exact .inr ⟨0, q, r, Nat.zero_le _, by simp, hkk, hk, hp⟩
      · exact .inr ⟨j + 1, q', r', by omega, by simpa using hr, hrest⟩

/-- C88: a channel is made only by an answer whose text (up to the first zero octet), now or earlier in this context, was a positive reply that holds some profile. -/
theorem C88_seen_partial (parse : List UInt8 → Option StartDoc) (hist : List (String × StartReply)) (i : Nat) (q : String)
    (r : StartReply) (c : StartCheck) (hr : hist[i]? = some (q, r)) (hc : (validateAll parse [] hist).1[i]? = some c) (ht : c.result = true) :
    ∃ j q' r', j ≤ i ∧ hist[j]? = some (q', r') ∧ r'.payload.takeWhile (· ≠ 0) = r.payload.takeWhile (· ≠ 0) ∧ r'.kind = .rpy ∧
      ∃ u d, parse r'.payload = some (.profile u d) := by
  obtain ⟨q2, r2, h2, h3⟩ := aux_cr_seen parse hist [] i c hc ht
  rw [hr] at h2
  cases h2
  simpa [startKey] using h3

theorem aux_cr_key (p : List UInt8) (h : 0 ∉ p) : startKey p = p := by
  induction p with
  | nil => rfl
  | cons a l ih =>
    simp only [List.mem_cons, not_or] at h
    have ha : a ≠ 0 := fun e => h.1 e.symm
    have := ih h.2
    simp only [startKey] at this ⊢
    rw [List.takeWhile_cons, if_pos (by simpa using ha), this]

/-- A cache that holds only what its texts say. -/
def aux_cr_true (parse : List UInt8 → Option StartDoc) (cache : StartCache) : Prop :=
  ∀ k content, cache.lookup k = some content → ∃ u, parse k = some (.profile u content)

theorem aux_cr_piggy (parse : List UInt8 → Option StartDoc) (r : StartReply) (u content : Option String)
    (h : parse r.payload = some (.profile u content)) : startPiggyback content = startContent parse r := by
  simp only [startContent, h, startPiggyback]
  cases content with
  | none => rfl
  | some c => by_cases hc : c = "" <;> simp [hc, Option.filter]

theorem aux_cr_one (parse : List UInt8 → Option StartDoc) (cache : StartCache) (q : String) (r : StartReply)
    (hf : StartFaithful parse q r) (ht : aux_cr_true parse cache) :
    (((validateStart parse cache q r).1.result = true ↔ StartAccepted parse q r) ∧
      ((validateStart parse cache q r).1.result = true → (validateStart parse cache q r).1.piggyback = startContent parse r)) ∧
    aux_cr_true parse (validateStart parse cache q r).2 := by
  obtain ⟨f1, f2, f3⟩ := hf
  have hkey := aux_cr_key r.payload f3
  simp only [validateStart, hkey]
  cases hl : cache.lookup r.payload with
  | some content =>
    obtain ⟨u, hu⟩ := ht _ _ hl
    have hk : r.kind = .rpy := Classical.byContradiction fun h => f2 h u content hu
    refine ⟨⟨⟨fun _ => f1 hk, fun _ => rfl⟩, fun _ => ?_⟩, ht⟩
    exact aux_cr_piggy parse r u content hu
  | none =>
    cases hp : parse r.payload with
    | none =>
      refine ⟨⟨⟨fun h => by simp at h, fun ⟨_, c, h⟩ => by rw [hp] at h; simp at h⟩, fun h => by simp at h⟩, ht⟩
    | some d =>
      simp only
      split
      · next hk =>
        exact ⟨⟨⟨fun h => by simp at h, fun ⟨h, _⟩ => absurd h hk⟩, fun h => by simp at h⟩, ht⟩
      · next hk =>
        have hk : r.kind = .rpy := by simpa using hk
        obtain ⟨_, c, hc⟩ := f1 hk
        rw [hp] at hc
        cases hc
        simp only [if_true]
        refine ⟨⟨⟨fun _ => ⟨hk, c, hp⟩, fun _ => by simp⟩, fun _ => aux_cr_piggy parse r _ _ hp⟩, ?_⟩
        intro k content hkc
        rw [List.lookup_cons] at hkc
        split at hkc
        · next he =>
          have : k = r.payload := by simpa using he
          subst this
          cases hkc
          exact ⟨_, hp⟩
        · exact ht k content hkc

theorem aux_cr_all (parse : List UInt8 → Option StartDoc) (hist : List (String × StartReply)) : ∀ (cache : StartCache),
    (∀ q r, (q, r) ∈ hist → StartFaithful parse q r) → aux_cr_true parse cache →
    ∀ (i : Nat) q r (c : StartCheck), hist[i]? = some (q, r) → (validateAll parse cache hist).1[i]? = some c →
      (c.result = true ↔ StartAccepted parse q r) ∧ (c.result = true → c.piggyback = startContent parse r) := by
  induction hist with
  | nil => intro _ _ _ i q r c h; simp at h
  | cons x rest ih =>
    obtain ⟨q0, r0⟩ := x
    intro cache hf ht i q r c hr hc
    have h1 := aux_cr_one parse cache q0 r0 (hf q0 r0 (by simp)) ht
    simp only [validateAll] at hc
    cases i with
    | zero =>
      simp only [List.getElem?_cons_zero, Option.some.injEq, Prod.mk.injEq] at hr hc
      obtain ⟨rfl, rfl⟩ := hr
      rw [← hc]
      exact h1.1
    | succ n =>
      simp only [List.getElem?_cons_succ] at hr hc
      exact ih _ (fun q r hm => hf q r (List.mem_cons_of_mem _ hm)) h1.2 n q r c hr hc

/-- C88, with peers that answer as the protocol asks for: exactly the answers that accept the profile asked for make a channel, with the content
the peer sent as piggyback. Missing: peers that answer something else. -/
theorem C88_partial (parse : List UInt8 → Option StartDoc) (hist : List (String × StartReply))
    (hf : ∀ q r, (q, r) ∈ hist → StartFaithful parse q r) (i : Nat) (q : String) (r : StartReply) (c : StartCheck)
    (hr : hist[i]? = some (q, r)) (hc : (validateAll parse [] hist).1[i]? = some c) :
    (c.result = true ↔ StartAccepted parse q r) ∧ (c.result = true → c.piggyback = startContent parse r) :=
  aux_cr_all parse hist [] hf (fun k c h => by simp at h) i q r c hr hc

/-- A parser for the examples: texts 1 and 2 hold the profiles "a" and "b", others an error. -/
def aux_cr_parse : List UInt8 → Option StartDoc
  | [1] => some (.profile (some "a") (some "x"))
  | [2] => some (.profile (some "b") none)
  | _ => some (.error 550 "no")

example : ∀ q r, (q, r) ∈ [("a", StartReply.mk .rpy [1]), ("b", ⟨.err, [3]⟩), ("a", ⟨.rpy, [1]⟩)] → StartFaithful aux_cr_parse q r := by
  intro q r h
  simp only [List.mem_cons, Prod.mk.injEq, List.not_mem_nil, or_false] at h
  rcases h with ⟨rfl, rfl⟩ | ⟨rfl, rfl⟩ | ⟨rfl, rfl⟩
  · exact ⟨fun _ => ⟨rfl, _, rfl⟩, fun h => by simp at h, by decide⟩
  · exact ⟨fun h => by simp at h, fun _ u c => by simp [aux_cr_parse], by decide⟩
  · exact ⟨fun _ => ⟨rfl, _, rfl⟩, fun h => by simp at h, by decide⟩

example : (validateAll aux_cr_parse [] [("a", ⟨.rpy, [1]⟩), ("b", ⟨.err, [3]⟩), ("a", ⟨.rpy, [1]⟩)]).1 =
    [⟨true, some "x", none⟩, ⟨false, none, some (550, "no")⟩, ⟨true, some "x", none⟩] := by decide

/-- C88, a refusal reports the error of the peer and no other answer reports one. -/
theorem C88_error (parse : List UInt8 → Option StartDoc) (q : String) (r : StartReply) (e : Int × String) :
    (validateStart parse [] q r).1.error = some e ↔ r.kind ≠ .rpy ∧ parse r.payload = some (.error e.1 e.2) := by
  obtain ⟨n, t⟩ := e
  simp only [validateStart, List.lookup_nil]
  cases hp : parse r.payload with
  | none => simp
  | some d =>
    cases d with
    | profile u c => by_cases hk : r.kind = .rpy <;> by_cases hu : u = some q <;> simp [hk, hu]
    | error _ _ => by_cases hk : r.kind = .rpy <;> simp [hk]
    | other => by_cases hk : r.kind = .rpy <;> simp [hk]

/-- C88 is violated: the peer answers twice with another profile than the one asked for; the second time the channel is created. -/
theorem C88_other_profile : (validateAll aux_cr_parse [] [("a", ⟨.rpy, [2]⟩), ("a", ⟨.rpy, [2]⟩)]).1.map (·.result) = [false, true] ∧
    ¬ StartAccepted aux_cr_parse "a" ⟨.rpy, [2]⟩ := by
  refine ⟨by decide, fun ⟨_, c, h⟩ => ?_⟩
  simp [aux_cr_parse] at h

/-- C88 is violated: after a channel with one profile was accepted, the same text answers a request for another profile, even in a negative
reply, and the channel is created. -/
theorem C88_negative_accepted :
    (validateAll aux_cr_parse [] [("b", ⟨.rpy, [2]⟩), ("a", ⟨.err, [2]⟩)]).1.map (·.result) = [true, true] ∧
    ¬ StartAccepted aux_cr_parse "a" ⟨.err, [2]⟩ := by
  refine ⟨by decide, fun ⟨h, _⟩ => ?_⟩
  simp at h

/-- C88 is violated: two threads do not find the text; the first one stores it, a third one takes the entry, the second one replaces it. -/
theorem C88_released : StartCacheUse.init.run [0, 1, 0, 2, 1, 2] = none := by decide

/-- C88, memory: if a thread asks for the text only while no other thread is about to store it, no released entry is used. -/
theorem C88_memory_partial (sched : List Nat) (s : StartCacheUse) (hs : StartCacheUse.init.run sched = some s) (i : Nat)
    (hone : ∀ pre r, (∃ post, sched = pre ++ post) → StartCacheUse.init.run pre = some r →
      ∀ j k, r.pc j = .missed → r.pc k = .missed → j = k) : s.step i ≠ none := by
  have key : ∀ (post pre : List Nat) (r : StartCacheUse), (∀ p r, (∃ q, pre ++ post = p ++ q) → StartCacheUse.init.run p = some r →
        ∀ j k, r.pc j = .missed → r.pc k = .missed → j = k) → StartCacheUse.init.run pre = some r →
      ((r.entry ≠ none → ∀ j, r.pc j ≠ .missed) ∧ (∀ j e, r.pc j = .found e → r.entry = some e)) →
      r.run post = some s → ((s.entry ≠ none → ∀ j, s.pc j ≠ .missed) ∧ (∀ j e, s.pc j = .found e → s.entry = some e)) := by
    intro post
    induction post with
    | nil => intro pre r _ _ hi h; simp only [StartCacheUse.run, Option.some.injEq] at h; rw [← h]; exact hi
    | cons a rest ih =>
      intro pre r hone hr hi h
      simp only [StartCacheUse.run] at h
      cases hst : r.step a with
      | none => rw [hst] at h; simp at h
      | some r' =>
        rw [hst] at h
        have happ : ∀ (p q : List Nat) (x : StartCacheUse), x.run (p ++ q) = (x.run p).bind (fun y => y.run q) := by
          intro p
          induction p with
          | nil => intro q x; rfl
          | cons b l ihl =>
            intro q x
            simp only [List.cons_append, StartCacheUse.run]
            cases x.step b with
            | none => rfl
            | some y => exact ihl q y
        refine ih (pre ++ [a]) r' (fun p x hp => hone p x ?_) ?_ ?_ h
        · obtain ⟨q, hq⟩ := hp; exact ⟨q, by simpa using hq⟩
        · rw [happ, hr]; simp [StartCacheUse.run, hst]
        · have hmm := hone pre r ⟨a :: rest, rfl⟩ hr
          obtain ⟨h1, h2⟩ := hi
          simp only [StartCacheUse.step] at hst
          cases hpc : r.pc a with
          | out =>
            rw [hpc] at hst
            simp only [Option.some.injEq] at hst
            subst hst
            cases he : r.entry <;> simp only [StartCacheUse.set] <;> grind
          | missed =>
            rw [hpc] at hst
            simp only [Option.some.injEq] at hst
            subst hst
            have hnone : r.entry = none := by
              cases he : r.entry with
              | none => rfl
              | some e => exact absurd hpc (h1 (by simp [he]) a)
            simp only [StartCacheUse.set]
            grind
          | found e =>
            rw [hpc] at hst
            simp only at hst
            split at hst
            · cases hst
              simp only [StartCacheUse.set]
              grind
            · cases hst
  have hi := key sched [] StartCacheUse.init (fun p r hp hr => hone p r (by simpa using hp) hr) rfl
    ⟨fun h => absurd rfl h, fun j e h => by simp [StartCacheUse.init] at h⟩ hs
  simp only [StartCacheUse.step]
  cases hpc : s.pc i with
  | out => simp
  | missed => simp
  | found e => simp [hi.2 i e hpc]

example : ∃ s, StartCacheUse.init.run [0, 0, 1, 2, 1] = some s ∧ s.pc 2 = .found 0 := ⟨_, rfl, rfl⟩

theorem C88_statement_false : ¬ C88_statement := fun h => h.2 _ C88_released

/-! ## C89 -/

/-- C89, full: a call that is over has told its caller the result exactly once; and a channel that was created and not closed is among
those of its connection. False of the code. -/
def C89_statement : Prop :=
  ∀ acts (i : Nat) (c : CreateCall), (ChanCreate.init.run acts).calls[i]? = some c →
    (∀ b, c.pc = .returned b → c.told = [b]) ∧
    (createMade c → i ∉ (ChanCreate.init.run acts).closed → (c.num, i) ∈ (ChanCreate.init.run acts).table)

structure aux_cr_inv (s : ChanCreate) : Prop where
  refs : s.refs = (s.calls.filter createUnderWay).length
  told : ∀ (i : Nat) c, s.calls[i]? = some c → createUnderWay c = true → c.told = []
  back : ∀ (i : Nat) c b, s.calls[i]? = some c → c.pc = .returned b → c.told = [b] ∨ (c.threaded = true ∧ b = false ∧ c.told = [] ∧ s.ok = false)
  own : ∀ n (i : Nat), (n, i) ∈ s.table → ∃ c, s.calls[i]? = some c ∧ c.num = n ∧ (c.pc = .asked ∨ createMade c)
  uniq : ∀ n i j, (n, i) ∈ s.table → (n, j) ∈ s.table → i = j
  closed : ∀ i, i ∈ s.closed → ∃ c, s.calls[i]? = some c ∧ createMade c

theorem aux_cr_filter_set (l : List CreateCall) (i : Nat) (c d : CreateCall) (h : l[i]? = some c) (hu : createUnderWay c = true) :
    ((l.set i d).filter createUnderWay).length + 1 =
      (l.filter createUnderWay).length + (if createUnderWay d then 1 else 0) := by
  induction l generalizing i with
  | nil => simp at h
  | cons a l ih =>
    cases i with
    | zero =>
      simp only [List.getElem?_cons_zero, Option.some.injEq] at h
      subst h
      by_cases hd : createUnderWay d <;> simp [hu, hd]
    | succ n =>
      simp only [List.getElem?_cons_succ] at h
      have := ih n h
      simp only [List.set_cons_succ, List.filter_cons]
      split
      · simp only [List.length_cons]; omega
      · exact this

theorem aux_cr_get (l : List CreateCall) (i j : Nat) (c d : CreateCall) (h : l[i]? = some c) :
    (l.set i d)[j]? = if j = i then some d else l[j]? := by
  grind

theorem aux_cr_inv_init : aux_cr_inv ChanCreate.init :=
  ⟨rfl, by simp [ChanCreate.init], by simp [ChanCreate.init], by simp [ChanCreate.init], by simp [ChanCreate.init],
    by simp [ChanCreate.init]⟩

/-- A call goes on from `c` to `d`, the table loses the entries of its number or stays. -/
theorem aux_cr_move (s : ChanCreate) (i : Nat) (c d : CreateCall) (h : aux_cr_inv s) (hc : s.calls[i]? = some c)
    (hn : d.num = c.num) (ht : d.told = c.told) (hu : createUnderWay c = true) (hd : createUnderWay d = true)
    (hk : c.pc = .asked → d.pc = .ended true) (hm : ¬ createMade c) : aux_cr_inv (s.put i d) := by
  obtain ⟨h1, h2, h3, h4, h5, h6⟩ := h
  have hg := fun j => aux_cr_get s.calls i j c d hc
  refine ⟨?_, ?_, ?_, ?_, h5, ?_⟩
  · have := aux_cr_filter_set s.calls i c d hc hu
    simp only [hd, if_true] at this
    simp only [ChanCreate.put]
    omega
  · intro j e he hue
    simp only [ChanCreate.put, hg] at he
    split at he
    · cases he; rw [ht]; exact h2 i c hc hu
    · exact h2 j e he hue
  · intro j e b he hb
    simp only [ChanCreate.put, hg] at he
    split at he
    · cases he; simp [createUnderWay, hb] at hd
    · exact h3 j e b he hb
  · intro n j hj
    obtain ⟨e, he, hen, hep⟩ := h4 n j hj
    by_cases hji : j = i
    · subst hji
      rw [hc] at he
      cases he
      refine ⟨d, by simp [ChanCreate.put, hg], by rw [hn]; exact hen, ?_⟩
      rcases hep with hep | hep
      · exact .inr (.inl (hk hep))
      · exact absurd hep hm
    · exact ⟨e, by simp [ChanCreate.put, hg, hji, he], hen, hep⟩
  · intro j hj
    obtain ⟨e, he, hem⟩ := h6 j hj
    by_cases hji : j = i
    · subst hji
      rw [hc] at he
      cases he
      exact absurd hem hm
    · exact ⟨e, by simp [ChanCreate.put, hg, hji, he], hem⟩

theorem aux_cr_remove (s : ChanCreate) (n : Nat) (h : aux_cr_inv s) : aux_cr_inv (s.remove n) := by
  obtain ⟨h1, h2, h3, h4, h5, h6⟩ := h
  refine ⟨h1, h2, h3, ?_, ?_, h6⟩
  · intro m i hm
    exact h4 m i (List.mem_filter.1 hm).1
  · intro m i j hi hj
    exact h5 m i j (List.mem_filter.1 hi).1 (List.mem_filter.1 hj).1

/-- As `aux_cr_move`, with the entries of its number removed before. -/
theorem aux_cr_move_rem (s : ChanCreate) (i : Nat) (c d : CreateCall) (h : aux_cr_inv s) (hc : s.calls[i]? = some c)
    (hn : d.num = c.num) (ht : d.told = c.told) (hu : createUnderWay c = true) (hd : createUnderWay d = true)
    (hm : ¬ createMade c) : aux_cr_inv ((s.remove c.num).put i d) := by
  obtain ⟨h1, h2, h3, h4, h5, h6⟩ := aux_cr_remove s c.num h
  have hc' : (s.remove c.num).calls[i]? = some c := hc
  have hg := fun j => aux_cr_get (s.remove c.num).calls i j c d hc'
  refine ⟨?_, ?_, ?_, ?_, h5, ?_⟩
  · have := aux_cr_filter_set (s.remove c.num).calls i c d hc' hu
    simp only [hd, if_true] at this
    simp only [ChanCreate.put]
    omega
  · intro j e he hue
    simp only [ChanCreate.put, hg] at he
    split at he
    · cases he; rw [ht]; exact h2 i c hc' hu
    · exact h2 j e he hue
  · intro j e b he hb
    simp only [ChanCreate.put, hg] at he
    split at he
    · cases he; simp [createUnderWay, hb] at hd
    · exact h3 j e b he hb
  · intro n j hj
    obtain ⟨e, he, hen, hep⟩ := h4 n j hj
    by_cases hji : j = i
    · subst hji
      rw [hc'] at he
      cases he
      have := (List.mem_filter.1 hj).2
      simp [hen] at this
    · exact ⟨e, by simp only [ChanCreate.put, hg]; simpa [hji] using he, hen, hep⟩
  · intro j hj
    obtain ⟨e, he, hem⟩ := h6 j hj
    by_cases hji : j = i
    · subst hji
      rw [hc'] at he
      cases he
      exact absurd hem hm
    · exact ⟨e, by simp only [ChanCreate.put, hg]; simpa [hji] using he, hem⟩

theorem aux_cr_step (s : ChanCreate) (a : ChanCreateAct) (h : aux_cr_inv s) : aux_cr_inv (s.step a) := by
  have h' := h
  obtain ⟨h1, h2, h3, h4, h5, h6⟩ := h
  cases a with
  | call num threaded =>
    have happ : ∀ (j : Nat) (d e : CreateCall), (s.calls ++ [d])[j]? = some e → s.calls[j]? = some e ∨ (j = s.calls.length ∧ e = d) := by
      intro j d e he
      rw [List.getElem?_append] at he
      split at he
      · exact .inl he
      · right
        cases hz : j - s.calls.length with
        | zero => rw [hz] at he; simp at he; exact ⟨by omega, he.symm⟩
        | succ n => rw [hz] at he; simp at he
    have hold : ∀ (j : Nat) (d e : CreateCall), s.calls[j]? = some e → (s.calls ++ [d])[j]? = some e := by
      intro j d e he
      rw [List.getElem?_append_left]
      · exact he
      · exact (List.getElem?_eq_some_iff.1 he).1
    simp only [ChanCreate.step]
    split
    · next hok =>
      refine ⟨?_, ?_, ?_, ?_, h5, ?_⟩
      · simpa [List.filter_append, createUnderWay] using h1
      · intro j e he hue
        rcases happ _ _ _ he with he | ⟨_, rfl⟩
        · exact h2 j e he hue
        · simp [createUnderWay] at hue
      · intro j e b he hb
        rcases happ _ _ _ he with he | ⟨_, rfl⟩
        · exact h3 j e b he hb
        · simp only [ChanCreatePc.returned.injEq] at hb
          subst hb
          cases threaded
          · exact .inl rfl
          · exact .inr ⟨rfl, rfl, rfl, hok⟩
      · intro n j hj
        obtain ⟨e, he, hr⟩ := h4 n j hj
        exact ⟨e, hold _ _ _ he, hr⟩
      · intro j hj
        obtain ⟨e, he, hr⟩ := h6 j hj
        exact ⟨e, hold _ _ _ he, hr⟩
    · refine ⟨?_, ?_, ?_, ?_, h5, ?_⟩
      · simp only [List.filter_append, List.length_append, h1]; rfl
      · intro j e he hue
        rcases happ _ _ _ he with he | ⟨_, rfl⟩
        · exact h2 j e he hue
        · rfl
      · intro j e b he hb
        rcases happ _ _ _ he with he | ⟨_, rfl⟩
        · exact h3 j e b he hb
        · simp at hb
      · intro n j hj
        obtain ⟨e, he, hr⟩ := h4 n j hj
        exact ⟨e, hold _ _ _ he, hr⟩
      · intro j hj
        obtain ⟨e, he, hr⟩ := h6 j hj
        exact ⟨e, hold _ _ _ he, hr⟩
  | step i =>
    simp only [ChanCreate.step]
    cases hc : s.calls[i]? with
    | none => exact h'
    | some c =>
      simp only
      cases hpc : c.pc with
      | begun =>
        simp only
        split <;>
          exact aux_cr_move s i c _ h' hc rfl rfl (by simp [createUnderWay, hpc]) rfl (by simp [hpc]) (by simp [createMade, hpc])
      | free =>
        simp only
        split
        · exact aux_cr_move s i c _ h' hc rfl rfl (by simp [createUnderWay, hpc]) rfl (by simp [hpc]) (by simp [createMade, hpc])
        · next hany =>
          have hm := aux_cr_move s i c { c with pc := .asked } h' hc rfl rfl (by simp [createUnderWay, hpc]) rfl (by simp [hpc])
            (by simp [createMade, hpc])
          obtain ⟨m1, m2, m3, m4, m5, m6⟩ := hm
          have hno : ∀ j, (c.num, j) ∉ s.table := by
            intro j hj
            apply hany
            simp only [List.any_eq_true, beq_iff_eq]
            exact ⟨_, hj, rfl⟩
          refine ⟨m1, m2, m3, ?_, ?_, m6⟩
          · intro n j hj
            simp only [List.mem_append, List.mem_singleton, Prod.mk.injEq] at hj
            rcases hj with hj | ⟨rfl, rfl⟩
            · exact m4 n j hj
            · refine ⟨{ c with pc := .asked }, ?_, rfl, .inl rfl⟩
              simp [ChanCreate.put, aux_cr_get _ _ _ _ _ hc]
          · intro n j k hj hk
            simp only [List.mem_append, List.mem_singleton, Prod.mk.injEq] at hj hk
            rcases hj with hj | ⟨rfl, rfl⟩
            · rcases hk with hk | ⟨rfl, rfl⟩
              · exact h5 n j k hj hk
              · exact absurd hj (hno _)
            · rcases hk with hk | ⟨_, rfl⟩
              · exact absurd hk (hno _)
              · rfl
      | asked => exact h'
      | refused =>
        exact aux_cr_move_rem s i c _ h' hc rfl rfl (by simp [createUnderWay, hpc]) rfl (by simp [createMade, hpc])
      | ended b =>
        have hu : createUnderWay c = true := by simp [createUnderWay, hpc]
        have hg := fun j => aux_cr_get s.calls i j c { c with pc := .returned b, told := c.told ++ [b] } hc
        have htold := h2 i c hc hu
        refine ⟨?_, ?_, ?_, ?_, h5, ?_⟩
        · have := aux_cr_filter_set s.calls i c { c with pc := .returned b, told := c.told ++ [b] } hc hu
          simp only [ChanCreate.put]
          simp [createUnderWay] at this ⊢
          omega
        · intro j e he hue
          simp only [ChanCreate.put, hg] at he
          split at he
          · cases he; simp [createUnderWay] at hue
          · exact h2 j e he hue
        · intro j e b' he hb
          simp only [ChanCreate.put, hg] at he
          split at he
          · cases he
            simp only [ChanCreatePc.returned.injEq] at hb
            subst hb
            simp [htold]
          · exact h3 j e b' he hb
        · intro n j hj
          obtain ⟨e, he, hen, hep⟩ := h4 n j hj
          by_cases hji : j = i
          · subst hji
            rw [hc] at he
            cases he
            refine ⟨{ c with pc := .returned b, told := c.told ++ [b] }, by simp only [ChanCreate.put, hg]; simp, hen, ?_⟩
            simp only [createMade, hpc] at hep ⊢
            simpa using hep
          · exact ⟨e, by simp only [ChanCreate.put, hg]; simpa [hji] using he, hen, hep⟩
        · intro j hj
          obtain ⟨e, he, hem⟩ := h6 j hj
          by_cases hji : j = i
          · subst hji
            rw [hc] at he
            cases he
            refine ⟨{ c with pc := .returned b, told := c.told ++ [b] }, by simp only [ChanCreate.put, hg]; simp, ?_⟩
            simp only [createMade, hpc] at hem ⊢
            simpa using hem
          · exact ⟨e, by simp only [ChanCreate.put, hg]; simpa [hji] using he, hem⟩
      | returned b => exact h'
  | lost i =>
    simp only [ChanCreate.step]
    cases hc : s.calls[i]? with
    | none => exact h'
    | some c =>
      simp only
      split
      · next hpc => exact aux_cr_move_rem s i c _ h' hc rfl rfl (by simp [createUnderWay, hpc]) rfl (by simp [createMade, hpc])
      · exact h'
  | reply i good =>
    simp only [ChanCreate.step]
    cases hc : s.calls[i]? with
    | none => exact h'
    | some c =>
      simp only
      split
      · next hpc =>
        split
        · exact aux_cr_move s i c _ h' hc rfl rfl (by simp [createUnderWay, hpc]) rfl (fun _ => rfl) (by simp [createMade, hpc])
        · exact aux_cr_move_rem s i c _ h' hc rfl rfl (by simp [createUnderWay, hpc]) rfl (by simp [createMade, hpc])
      · exact h'
  | close i =>
    simp only [ChanCreate.step]
    cases hc : s.calls[i]? with
    | none => exact h'
    | some c =>
      simp only
      split
      · next hpc =>
        obtain ⟨m1, m2, m3, m4, m5, m6⟩ := aux_cr_remove s c.num h'
        refine ⟨m1, m2, m3, m4, m5, ?_⟩
        intro j hj
        simp only [List.mem_cons] at hj
        rcases hj with rfl | hj
        · exact ⟨c, hc, hpc.1⟩
        · exact h6 j hj
      · exact h'
  | fail =>
    refine ⟨h1, h2, ?_, h4, h5, h6⟩
    intro j e b he hb
    rcases h3 j e b he hb with h | ⟨x, y, z, _⟩
    · exact .inl h
    · exact .inr ⟨x, y, z, rfl⟩

theorem aux_cr_run (acts : List ChanCreateAct) : aux_cr_inv (ChanCreate.init.run acts) := by
  have : ∀ (l : List ChanCreateAct) s, aux_cr_inv s → aux_cr_inv (l.foldl ChanCreate.step s) := by
    intro l
    induction l with
    | nil => intro s h; exact h
    | cons a l ih => intro s h; exact ih _ (aux_cr_step s a h)
  exact this acts _ aux_cr_inv_init

/-- C89, told once: a call that is over told its caller the result exactly once, except a call with a handler made when the connection was
down, whose handler is never called; and as long as a call is under way, nothing was told. -/
theorem C89_told_partial (acts : List ChanCreateAct) (i : Nat) (c : CreateCall) (hc : (ChanCreate.init.run acts).calls[i]? = some c) :
    (∀ b, c.pc = .returned b → c.told = [b] ∨ (c.threaded = true ∧ b = false ∧ c.told = [] ∧ (ChanCreate.init.run acts).ok = false)) ∧
    (createUnderWay c = true → c.told = []) :=
  ⟨fun b => (aux_cr_run acts).back i c b hc, (aux_cr_run acts).told i c hc⟩

/-- C89, references: the references to the connection are those of the calls under way. -/
theorem C89_refs (acts : List ChanCreateAct) :
    (ChanCreate.init.run acts).refs = ((ChanCreate.init.run acts).calls.filter createUnderWay).length :=
  (aux_cr_run acts).refs

/-- C89: what is among the channels of the connection is a channel that was asked for and not refused, and no number is there twice; so a call
that failed leaves nothing behind. -/
theorem C89_table (acts : List ChanCreateAct) :
    (∀ (i : Nat) c, (ChanCreate.init.run acts).calls[i]? = some c → createFailed c → ∀ n, (n, i) ∉ (ChanCreate.init.run acts).table) ∧
    (∀ n i j, (n, i) ∈ (ChanCreate.init.run acts).table → (n, j) ∈ (ChanCreate.init.run acts).table → i = j) := by
  refine ⟨?_, (aux_cr_run acts).uniq⟩
  intro i c hc hf n hn
  obtain ⟨e, he, _, hp⟩ := (aux_cr_run acts).own n i hn
  rw [hc] at he
  cases he
  rcases hf with hf | hf <;> simp [hf, createMade] at hp

example : ∃ c, (ChanCreate.init.run [.call 3 true, .step 0, .step 0, .reply 0 false, .step 0, .step 0]).calls[0]? = some c ∧
    createFailed c ∧ c.told = [false] := ⟨_, rfl, .inr rfl, rfl⟩

/-- What holds if calls for the same number do not overlap. -/
structure aux_cr_apart (s : ChanCreate) : Prop where
  apart : ∀ (i j : Nat) c d, s.calls[i]? = some c → s.calls[j]? = some d → c.num = d.num → createUnderWay c = true → createUnderWay d = true → i = j
  kept : ∀ (i : Nat) c, s.calls[i]? = some c → (c.pc = .asked ∨ createMade c) → i ∉ s.closed → (c.num, i) ∈ s.table
  clear : ∀ (i : Nat) c, s.calls[i]? = some c → c.pc = .refused → ∀ j, (c.num, j) ∉ s.table

/-- A call in the table fails: it removes its number. -/
theorem aux_cr_apart_rem (s : ChanCreate) (i : Nat) (c d : CreateCall) (huniq : ∀ n i j, (n, i) ∈ s.table → (n, j) ∈ s.table → i = j)
    (hclosed : ∀ (i : Nat), i ∈ s.closed → ∃ c, s.calls[i]? = some c ∧ createMade c) (h : aux_cr_apart s)
    (hc : s.calls[i]? = some c) (hpc : c.pc = .asked) (hn : d.num = c.num) (hda : d.pc ≠ .asked) (hdm : ¬ createMade d) :
    aux_cr_apart ((s.remove c.num).put i d) := by
  obtain ⟨h1, h2, h3⟩ := h
  have hu : createUnderWay c = true := by simp [createUnderWay, hpc]
  have hc' : (s.remove c.num).calls[i]? = some c := hc
  have hg := fun j => aux_cr_get (s.remove c.num).calls i j c d hc'
  have hin : (c.num, i) ∈ s.table := by
    refine h2 i c hc (.inl hpc) fun hcl => ?_
    obtain ⟨e, he, hem⟩ := hclosed i hcl
    rw [hc] at he
    cases he
    simp [createMade, hpc] at hem
  refine ⟨?_, ?_, ?_⟩
  · intro j k e f he hf hef hue huf
    simp only [ChanCreate.put, hg] at he hf
    split at he
    · cases he
      split at hf
      · next h1 h2 => rw [h1, h2]
      · have := h1 i k c f hc hf (by rw [← hef, hn]) hu huf
        next h1 h2 => rw [h1, this]
    · split at hf
      · cases hf
        have := h1 j i e c he hc (by rw [hef, hn]) hue hu
        next h1 h2 => rw [this, h2]
      · exact h1 j k e f he hf hef hue huf
  · intro j e he hp hcl
    simp only [ChanCreate.put, hg] at he
    split at he
    · cases he
      rcases hp with hp | hp
      · exact absurd hp hda
      · exact absurd hp hdm
    · next hji =>
      have hj := h2 j e he hp hcl
      refine List.mem_filter.2 ⟨hj, ?_⟩
      simp only [bne_iff_ne, ne_eq]
      intro hen
      rw [hen] at hj
      exact hji (huniq _ _ _ hj hin)
  · intro j e he hp k hk
    simp only [ChanCreate.put, hg] at he
    have hk' := List.mem_filter.1 hk
    split at he
    · cases he
      simp [hn] at hk'
    · exact h3 j e he hp k hk'.1

theorem aux_cr_apart_step (s : ChanCreate) (a : ChanCreateAct) (hi : aux_cr_inv s) (h : aux_cr_apart s)
    (ha : ∀ num threaded, a = .call num threaded → ∀ c, c ∈ s.calls → c.num = num → createUnderWay c = false) : aux_cr_apart (s.step a) := by
  have hs := h
  obtain ⟨i1, i2, i3, i4, i5, i6⟩ := hi
  obtain ⟨h1, h2, h3⟩ := h
  cases a with
  | call num threaded =>
    have happ : ∀ (j : Nat) (d e : CreateCall), (s.calls ++ [d])[j]? = some e → s.calls[j]? = some e ∨ (j = s.calls.length ∧ e = d) := by
      intro j d e he
      rw [List.getElem?_append] at he
      split at he
      · exact .inl he
      · right
        cases hz : j - s.calls.length with
        | zero => rw [hz] at he; simp at he; exact ⟨by omega, he.symm⟩
        | succ n => rw [hz] at he; simp at he
    have hfree := ha num threaded rfl
    simp only [ChanCreate.step]
    split
    · refine ⟨?_, ?_, ?_⟩
      · intro i j c d hc hd hn hu hv
        rcases happ _ _ _ hc with hc | ⟨_, rfl⟩
        · rcases happ _ _ _ hd with hd | ⟨_, rfl⟩
          · exact h1 i j c d hc hd hn hu hv
          · simp [createUnderWay] at hv
        · simp [createUnderWay] at hu
      · intro i c hc hp hcl
        rcases happ _ _ _ hc with hc | ⟨_, rfl⟩
        · exact h2 i c hc hp hcl
        · simp [createMade] at hp
      · intro i c hc hp
        rcases happ _ _ _ hc with hc | ⟨_, rfl⟩
        · exact h3 i c hc hp
        · simp at hp
    · refine ⟨?_, ?_, ?_⟩
      · intro i j c d hc hd hn hu hv
        rcases happ _ _ _ hc with hc | ⟨hi, rfl⟩
        · rcases happ _ _ _ hd with hd | ⟨_, rfl⟩
          · exact h1 i j c d hc hd hn hu hv
          · have := hfree c (List.mem_of_getElem? hc) hn
            rw [this] at hu
            cases hu
        · rcases happ _ _ _ hd with hd | ⟨hj, rfl⟩
          · have := hfree d (List.mem_of_getElem? hd) hn.symm
            rw [this] at hv
            cases hv
          · rw [hi, hj]
      · intro i c hc hp hcl
        rcases happ _ _ _ hc with hc | ⟨_, rfl⟩
        · exact h2 i c hc hp hcl
        · simp [createMade] at hp
      · intro i c hc hp
        rcases happ _ _ _ hc with hc | ⟨_, rfl⟩
        · exact h3 i c hc hp
        · simp at hp
  | step i =>
    simp only [ChanCreate.step]
    cases hc : s.calls[i]? with
    | none => exact hs
    | some c =>
      simp only
      -- the call goes on, the table stays or loses its number when nothing else is there
      have go : ∀ (d : CreateCall) (t : List (Nat × Nat)), d.num = c.num → createUnderWay c = true → ¬ createMade c → c.pc ≠ .asked →
          d.pc ≠ .asked → d.pc ≠ .refused → ¬ createMade d → (∀ n j, (n, j) ∈ t ↔ (n, j) ∈ s.table) →
          ∀ r, r.calls = s.calls.set i d → r.table = t → r.closed = s.closed → aux_cr_apart r := by
        intro d t hn hu hm hna hda hdr hdm htt r hrc hrt hrcl
        have hg := fun j => aux_cr_get s.calls i j c d hc
        refine ⟨?_, ?_, ?_⟩
        · intro j k e f he hf hef hue huf
          rw [hrc, hg] at he hf
          split at he
          · cases he
            split at hf
            · next h1 h2 => rw [h1, h2]
            · have := h1 i k c f hc hf (by rw [← hef, hn]) hu huf
              next h1 h2 => rw [h1, this]
          · split at hf
            · cases hf
              have := h1 j i e c he hc (by rw [hef, hn]) hue hu
              next h1 h2 => rw [this, h2]
            · exact h1 j k e f he hf hef hue huf
        · intro j e he hp hcl
          rw [hrc, hg] at he
          rw [hrt, htt]
          rw [hrcl] at hcl
          split at he
          · cases he
            rcases hp with hp | hp
            · exact absurd hp hda
            · exact absurd hp hdm
          · exact h2 j e he hp hcl
        · intro j e he hp k
          rw [hrc, hg] at he
          rw [hrt, htt]
          split at he
          · cases he; exact absurd hp hdr
          · exact h3 j e he hp k
      cases hpc : c.pc with
      | begun =>
        simp only
        split
        · exact go { c with pc := .ended false } s.table rfl (by simp [createUnderWay, hpc]) (by simp [createMade, hpc]) (by simp [hpc]) (by simp)
            (by simp) (by simp [createMade]) (fun _ _ => Iff.rfl) _ rfl rfl rfl
        · exact go { c with pc := .free } s.table rfl (by simp [createUnderWay, hpc]) (by simp [createMade, hpc]) (by simp [hpc]) (by simp)
            (by simp) (by simp [createMade]) (fun _ _ => Iff.rfl) _ rfl rfl rfl
      | free =>
        simp only
        split
        · exact go { c with pc := .ended false } s.table rfl (by simp [createUnderWay, hpc]) (by simp [createMade, hpc]) (by simp [hpc]) (by simp)
            (by simp) (by simp [createMade]) (fun _ _ => Iff.rfl) _ rfl rfl rfl
        · next hany =>
          have hu : createUnderWay c = true := by simp [createUnderWay, hpc]
          have hg := fun j => aux_cr_get s.calls i j c { c with pc := .asked } hc
          refine ⟨?_, ?_, ?_⟩
          · intro j k e f he hf hef hue huf
            simp only [ChanCreate.put, hg] at he hf
            split at he
            · cases he
              split at hf
              · next h1 h2 => rw [h1, h2]
              · have := h1 i k c f hc hf hef hu huf
                next h1 h2 => rw [h1, this]
            · split at hf
              · cases hf
                have := h1 j i e c he hc hef hue hu
                next h1 h2 => rw [this, h2]
              · exact h1 j k e f he hf hef hue huf
          · intro j e he hp hcl
            simp only [ChanCreate.put, hg] at he
            simp only [List.mem_append, List.mem_singleton, Prod.mk.injEq]
            split at he
            · next hji => cases he; exact .inr ⟨rfl, hji⟩
            · exact .inl (h2 j e he hp hcl)
          · intro j e he hp k hk
            simp only [ChanCreate.put, hg] at he
            simp only [List.mem_append, List.mem_singleton, Prod.mk.injEq] at hk
            split at he
            · cases he; simp at hp
            · next hji =>
              rcases hk with hk | ⟨hk, _⟩
              · exact h3 j e he hp k hk
              · exact hji (h1 j i e c he hc hk (by simp [createUnderWay, hp]) hu)
      | asked => exact hs
      | refused =>
        have hcl := h3 i c hc hpc
        refine go { c with pc := .ended false } (s.table.filter (fun e => e.1 != c.num)) rfl (by simp [createUnderWay, hpc])
          (by simp [createMade, hpc]) (by simp [hpc]) (by simp) (by simp) (by simp [createMade]) ?_ _ rfl rfl rfl
        intro n j
        simp only [List.mem_filter, bne_iff_ne, ne_eq, and_iff_left_iff_imp]
        intro hm hn
        exact hcl j (hn ▸ hm)
      | ended b =>
        have hu : createUnderWay c = true := by simp [createUnderWay, hpc]
        have hg := fun j => aux_cr_get s.calls i j c { c with pc := .returned b, told := c.told ++ [b] } hc
        refine ⟨?_, ?_, ?_⟩
        · intro j k e f he hf hef hue huf
          simp only [ChanCreate.put, hg] at he hf
          split at he
          · cases he; simp [createUnderWay] at hue
          · split at hf
            · cases hf; simp [createUnderWay] at huf
            · exact h1 j k e f he hf hef hue huf
        · intro j e he hp hcl
          simp only [ChanCreate.put, hg] at he
          split at he
          · next hji =>
            cases he
            subst hji
            refine h2 j c hc ?_ hcl
            simp only [createMade, hpc] at hp ⊢
            simpa using hp
          · exact h2 j e he hp hcl
        · intro j e he hp k hk
          simp only [ChanCreate.put, hg] at he
          split at he
          · cases he; simp at hp
          · exact h3 j e he hp k hk
      | returned b => exact hs
  | lost i =>
    simp only [ChanCreate.step]
    cases hc : s.calls[i]? with
    | none => exact hs
    | some c =>
      simp only
      split
      · next hpc => exact aux_cr_apart_rem s i c { c with pc := .ended false } i5 i6 hs hc hpc rfl (by simp) (by simp [createMade])
      · exact hs
  | reply i good =>
    simp only [ChanCreate.step]
    cases hc : s.calls[i]? with
    | none => exact hs
    | some c =>
      simp only
      split
      · next hpc =>
        split
        · have hu : createUnderWay c = true := by simp [createUnderWay, hpc]
          have hg := fun j => aux_cr_get s.calls i j c { c with pc := .ended true } hc
          refine ⟨?_, ?_, ?_⟩
          · intro j k e f he hf hef hue huf
            simp only [ChanCreate.put, hg] at he hf
            split at he
            · cases he
              split at hf
              · next h1 h2 => rw [h1, h2]
              · have := h1 i k c f hc hf hef hu huf
                next h1 h2 => rw [h1, this]
            · split at hf
              · cases hf
                have := h1 j i e c he hc hef hue hu
                next h1 h2 => rw [this, h2]
              · exact h1 j k e f he hf hef hue huf
          · intro j e he hp hcl
            simp only [ChanCreate.put, hg] at he
            split at he
            · next hji => cases he; subst hji; exact h2 j c hc (.inl hpc) hcl
            · exact h2 j e he hp hcl
          · intro j e he hp k hk
            simp only [ChanCreate.put, hg] at he
            split at he
            · cases he; simp at hp
            · exact h3 j e he hp k hk
        · exact aux_cr_apart_rem s i c { c with pc := .refused } i5 i6 hs hc hpc rfl (by simp) (by simp [createMade])
      · exact hs
  | close i =>
    simp only [ChanCreate.step]
    cases hc : s.calls[i]? with
    | none => exact hs
    | some c =>
      simp only
      split
      · next hpc =>
        have hin := h2 i c hc (.inr hpc.1) hpc.2
        refine ⟨h1, ?_, ?_⟩
        · intro j e he hp hcl
          simp only [List.mem_cons, not_or] at hcl
          have hj := h2 j e he hp hcl.2
          refine List.mem_filter.2 ⟨hj, ?_⟩
          simp only [bne_iff_ne, ne_eq]
          intro hn
          rw [hn] at hj
          exact hcl.1 (i5 _ _ _ hj hin)
        · intro j e he hp k hk
          exact h3 j e he hp k (List.mem_filter.1 hk).1
      · exact hs
  | fail => exact ⟨h1, h2, h3⟩

theorem aux_cr_apart_run (acts : List ChanCreateAct) : ∀ s, aux_cr_inv s → aux_cr_apart s → createsApart s acts → aux_cr_apart (s.run acts) := by
  induction acts with
  | nil => intro s _ h _; exact h
  | cons a rest ih =>
    intro s hi h hd
    exact ih (s.step a) (aux_cr_step s a hi) (aux_cr_apart_step s a hi h hd.1) hd.2

/-- C89, kept: if no call asks for a number while another call for it is under way, a channel that was created and not closed is among the
channels of its connection. Missing: calls for the same number at the same time. -/
theorem C89_kept_partial (acts : List ChanCreateAct) (hd : createsApart ChanCreate.init acts) (i : Nat) (c : CreateCall)
    (hc : (ChanCreate.init.run acts).calls[i]? = some c) (hm : createMade c) (hcl : i ∉ (ChanCreate.init.run acts).closed) :
    (c.num, i) ∈ (ChanCreate.init.run acts).table :=
  (aux_cr_apart_run acts _ aux_cr_inv_init
    ⟨by simp [ChanCreate.init], by simp [ChanCreate.init], by simp [ChanCreate.init]⟩ hd).kept i c hc (.inr hm) hcl

/-- A number that is refused, asked for again, created, and another one. -/
def aux_cr_acts : List ChanCreateAct :=
  [.call 3 false, .step 0, .step 0, .reply 0 false, .step 0, .step 0, .call 3 true, .call 5 false, .step 1, .step 1, .step 2, .reply 1 true,
    .step 1, .step 2, .lost 2]

example : createsApart ChanCreate.init aux_cr_acts ∧ (ChanCreate.init.run aux_cr_acts).table = [(3, 1)] ∧
    (ChanCreate.init.run aux_cr_acts).refs = 1 := by
  refine ⟨?_, by decide, by decide⟩
  simp only [aux_cr_acts, createsApart]
  simp [ChanCreate.step, ChanCreate.init, ChanCreate.put, ChanCreate.remove, createUnderWay]

/-- C89 is violated: the first call is refused and removes its channel; another thread creates a channel with this number; the first
call removes the number once more, and the channel created is no longer known to its connection. -/
theorem C89_lost : ∃ s c, ChanCreate.init.run [.call 3 false, .step 0, .step 0, .reply 0 false,
      .call 3 false, .step 1, .step 1, .reply 1 true, .step 1, .step 0] = s ∧
    s.calls[1]? = some c ∧ c.told = [true] ∧ s.closed = [] ∧ s.table = [] := ⟨_, _, rfl, rfl, rfl, rfl, rfl⟩

/-- C89 is violated: the connection is down, the handler is never called, whatever happens later. -/
theorem C89_never_told (acts : List ChanCreateAct) : ∃ c, ((ChanCreate.init.run [.fail, .call 3 true]).run acts).calls[0]? = some c ∧
    c.threaded = true ∧ c.pc = .returned false ∧ c.told = [] := by
  have key : ∀ (l : List ChanCreateAct) (s : ChanCreate), (∃ c, s.calls[0]? = some c ∧ c.threaded = true ∧ c.pc = .returned false ∧ c.told = []) →
      ∃ c, (s.run l).calls[0]? = some c ∧ c.threaded = true ∧ c.pc = .returned false ∧ c.told = [] := by
    intro l
    induction l with
    | nil => intro s h; exact h
    | cons a rest ih =>
      intro s h
      refine ih (s.step a) ?_
      obtain ⟨c, hc, ht, hp, htl⟩ := h
      refine ⟨c, ?_, ht, hp, htl⟩
      cases a with
      | call n t => simp only [ChanCreate.step]; split <;> grind
      | step i =>
        simp only [ChanCreate.step]
        cases hci : s.calls[i]? with
        | none => exact hc
        | some d =>
          simp only [ChanCreate.put, ChanCreate.remove]
          cases hpd : d.pc <;> simp only <;> grind
      | lost i => simp only [ChanCreate.step, ChanCreate.put, ChanCreate.remove]; grind
      | reply i g => simp only [ChanCreate.step, ChanCreate.put, ChanCreate.remove]; grind
      | close i => simp only [ChanCreate.step, ChanCreate.put, ChanCreate.remove]; grind
      | fail => exact hc
  exact key acts _ ⟨_, rfl, rfl, rfl, rfl⟩

theorem C89_statement_false : ¬ C89_statement := by
  intro h
  obtain ⟨s, c, hs, hc, ht, hcl, htab⟩ := C89_lost
  have hm : createMade c := by
    rw [← hs] at hc
    have : c = ⟨3, false, .returned true, [true]⟩ := by
      have h0 : some c = some (⟨3, false, .returned true, [true]⟩ : CreateCall) := by rw [← hc]; rfl
      exact Option.some.inj h0
    rw [this]
    exact .inr rfl
  rw [← hs] at hc hcl htab
  have := (h _ 1 c hc).2 hm (by rw [hcl]; simp)
  rw [htab] at this
  simp at this

end Verif.Props
