import Verif.Spec.SearchPath
/-!
# C97: Data files are found where the search paths of the domain say
-/
namespace Verif.Props
open Verif.Model Verif.Spec

/-- C97: whatever paths are added, by any number of threads, every file looked for is found where the paths added to its domain say. -/
def C97_statement : Prop := ∀ (sep : String) (ops : List SpOp) (domain : String),
  spAllRight sep (spRun sep .init [] ops).2 domain

theorem aux_sp_find_some (sep : String) (fs : String → Bool) (d name f : String) : ∀ l : List (String × String),
    spFind sep fs d name l = some f → fs f = true ∧ ∃ p, (d, p) ∈ l ∧ f = spFile sep p name := by
  intro l
  induction l with
  | nil => simp [spFind]
  | cons x l ih =>
    obtain ⟨d', p⟩ := x
    simp only [spFind]
    intro h
    split at h
    · next hd =>
      subst hd
      split at h
      · next hf => cases h; exact ⟨hf, p, List.mem_cons_self, rfl⟩
      · obtain ⟨a, q, b, c⟩ := ih h; exact ⟨a, q, List.mem_cons_of_mem _ b, c⟩
    · obtain ⟨a, q, b, c⟩ := ih h; exact ⟨a, q, List.mem_cons_of_mem _ b, c⟩

theorem aux_sp_find_early (sep : String) (fs : String → Bool) (d name p : String) (l2 : List (String × String)) :
    ∀ l1 : List (String × String), (d, p) ∈ l1 → fs (spFile sep p name) = true →
    ∃ q, (d, q) ∈ l1 ∧ spFind sep fs d name (l1 ++ l2) = some (spFile sep q name) := by
  intro l1
  induction l1 with
  | nil => simp
  | cons x l ih =>
    obtain ⟨d', p'⟩ := x
    intro hm hf
    simp only [List.cons_append, spFind]
    by_cases hd : d' = d
    · subst hd
      by_cases hp : fs (spFile sep p' name) = true
      · exact ⟨p', List.mem_cons_self, by simp [hp]⟩
      · have : (d', p) ∈ l := by
          rcases List.mem_cons.1 hm with h | h
          · cases h; exact absurd hf hp
          · exact h
        obtain ⟨q, a, b⟩ := ih this hf
        exact ⟨q, List.mem_cons_of_mem _ a, by simp [hp, b]⟩
    · have : (d, p) ∈ l := by
        rcases List.mem_cons.1 hm with h | h
        · cases h; exact absurd rfl hd
        · exact h
      obtain ⟨q, a, b⟩ := ih this hf
      exact ⟨q, List.mem_cons_of_mem _ a, by simp [hd, b]⟩

/-- The nodes are explained by what was seen. -/
def aux_sp_expl (nodes : List (String × String)) (log : List SpEvent) : Prop :=
  (∀ d p, (d, p) ∈ nodes → SpEvent.asked d p ∈ log) ∧
  (∀ d p, SpEvent.returned d p ∈ log → (d, p) ∈ nodes ∨ ("default", p) ∈ nodes)

structure aux_sp_Inv (s : SearchPaths) (log : List SpEvent) : Prop where
  whole : aux_sp_expl s.nodes log
  split : ∀ early late, log = early ++ late → ∃ l1 l2, s.nodes = l1 ++ l2 ∧ aux_sp_expl l1 early
  first : ∀ t d p, s.phase t = .first d p → SpEvent.asked d p ∈ log
  second : ∀ t d p, s.phase t = .second d p → SpEvent.asked d p ∈ log
  third : ∀ t d p, s.phase t = .third d p → SpEvent.asked d p ∈ log
  called : ∀ d p, SpEvent.returned d p ∈ log → SpEvent.asked d p ∈ log

theorem aux_sp_init : aux_sp_Inv .init [] := by
  refine ⟨⟨by simp [SearchPaths.init], by simp⟩, ?_, by simp [SearchPaths.init], by simp [SearchPaths.init], by simp [SearchPaths.init],
    by simp⟩
  intro early late h
  have : early = [] := by cases early <;> simp_all
  subst this
  exact ⟨[], [], rfl, by simp [aux_sp_expl]⟩

theorem aux_sp_snoc {α : Type} {l : List α} {e : α} {a b : List α} (h : l ++ [e] = a ++ b) :
    (b = [] ∧ a = l ++ [e]) ∨ ∃ b', b = b' ++ [e] ∧ l = a ++ b' := by
  rcases List.eq_nil_or_concat b with hb | ⟨b', x, hb⟩
  · subst hb; left; simp_all
  · subst hb
    right
    rw [List.concat_eq_append, ← List.append_assoc] at h
    have := List.append_inj' h rfl
    refine ⟨b', ?_, this.1⟩
    have h2 := this.2
    simp only [List.cons.injEq, and_true] at h2
    simp [h2]

/-- The split invariant for a log that grows by at most one event, and nodes that grow at the end. -/
theorem aux_sp_split {nodes new : List (String × String)} {log evs : List SpEvent} (he : evs.length ≤ 1)
    (hs : ∀ early late, log = early ++ late → ∃ l1 l2, nodes = l1 ++ l2 ∧ aux_sp_expl l1 early)
    (hw : aux_sp_expl (nodes ++ new) (log ++ evs)) :
    ∀ early late, log ++ evs = early ++ late → ∃ l1 l2, nodes ++ new = l1 ++ l2 ∧ aux_sp_expl l1 early := by
  intro early late h
  match evs, he with
  | [], _ =>
    rw [List.append_nil] at h
    obtain ⟨l1, l2, a, b⟩ := hs early late h
    exact ⟨l1, l2 ++ new, by rw [a, List.append_assoc], b⟩
  | [e], _ =>
    rcases aux_sp_snoc h with ⟨_, h1⟩ | ⟨b', _, h1⟩
    · exact ⟨nodes ++ new, [], by simp, by rw [h1]; exact hw⟩
    · obtain ⟨l1, l2, a, b⟩ := hs early b' h1
      exact ⟨l1, l2 ++ new, by rw [a, List.append_assoc], b⟩
  | _ :: _ :: _, he => simp at he

theorem aux_sp_step (sep : String) (s : SearchPaths) (log : List SpEvent) (op : SpOp) (h : aux_sp_Inv s log) :
    aux_sp_Inv (spStep sep s op).1 (log ++ (spStep sep s op).2) := by
  obtain ⟨⟨w1, w2⟩, hsp, p1, p2, p3, pc⟩ := h
  -- it is enough to look at the new nodes, the new events and the phases
  have key : ∀ (s' : SearchPaths) (new : List (String × String)) (evs : List SpEvent), s'.nodes = s.nodes ++ new → evs.length ≤ 1 →
      (∀ d p, (d, p) ∈ new → SpEvent.asked d p ∈ log) →
      (∀ d p, SpEvent.returned d p ∈ evs → SpEvent.asked d p ∈ log ∧ ((d, p) ∈ s.nodes ++ new ∨ ("default", p) ∈ s.nodes ++ new)) →
      (∀ t d p, s'.phase t = .first d p ∨ s'.phase t = .second d p ∨ s'.phase t = .third d p → SpEvent.asked d p ∈ log ++ evs) →
      aux_sp_Inv s' (log ++ evs) := by
    intro s' new evs e1 e2 e3 e4 e5
    have hw : aux_sp_expl (s.nodes ++ new) (log ++ evs) := by
      refine ⟨?_, ?_⟩
      · intro d p hm
        rcases List.mem_append.1 hm with hm | hm
        · exact List.mem_append_left _ (w1 d p hm)
        · exact List.mem_append_left _ (e3 d p hm)
      · intro d p hm
        rcases List.mem_append.1 hm with hm | hm
        · rcases w2 d p hm with h | h
          · exact .inl (List.mem_append_left _ h)
          · exact .inr (List.mem_append_left _ h)
        · exact (e4 d p hm).2
    refine ⟨by rw [e1]; exact hw, ?_, fun t d p h => e5 t d p (.inl h), fun t d p h => e5 t d p (.inr (.inl h)),
      fun t d p h => e5 t d p (.inr (.inr h)), ?_⟩
    · rw [e1]
      exact aux_sp_split e2 hsp hw
    · intro d p hm
      rcases List.mem_append.1 hm with hm | hm
      · exact List.mem_append_left _ (pc d p hm)
      · exact List.mem_append_left _ (e4 d p hm).1
  have old : ∀ t d p, s.phase t = .first d p ∨ s.phase t = .second d p ∨ s.phase t = .third d p → SpEvent.asked d p ∈ log := by
    intro t d p h
    rcases h with h | h | h
    · exact p1 t d p h
    · exact p2 t d p h
    · exact p3 t d p h
  have same : ∀ evs : List SpEvent, evs.length ≤ 1 → (∀ d p, SpEvent.returned d p ∉ evs) → aux_sp_Inv s (log ++ evs) := by
    intro evs e2 e4
    exact key s [] evs (by simp) e2 (by simp) (fun d p h => absurd h (e4 d p)) (fun t d p h => List.mem_append_left _ (old t d p h))
  -- a thread takes a phase of which the call was seen
  have set : ∀ (t : Nat) (q : SpPhase) (new : List (String × String)) (evs : List SpEvent), evs.length ≤ 1 →
      (∀ d p, (d, p) ∈ new → SpEvent.asked d p ∈ log) →
      (∀ d p, SpEvent.returned d p ∈ evs → SpEvent.asked d p ∈ log ∧ ((d, p) ∈ s.nodes ++ new ∨ ("default", p) ∈ s.nodes ++ new)) →
      (∀ d p, q = .first d p ∨ q = .second d p ∨ q = .third d p → SpEvent.asked d p ∈ log ++ evs) →
      aux_sp_Inv (spSet { s with nodes := s.nodes ++ new } t q) (log ++ evs) := by
    intro t q new evs e2 e3 e4 e5
    refine key _ new evs rfl e2 e3 e4 ?_
    intro t' d p hq
    simp only [spSet] at hq
    by_cases ht : t' = t
    · simp only [ht, if_true] at hq; exact e5 d p hq
    · simp only [ht, if_false] at hq; exact List.mem_append_left _ (old t' d p hq)
  have set0 : ∀ (t : Nat) (q : SpPhase) (evs : List SpEvent), evs.length ≤ 1 →
      (∀ d p, SpEvent.returned d p ∈ evs → SpEvent.asked d p ∈ log ∧ ((d, p) ∈ s.nodes ∨ ("default", p) ∈ s.nodes)) →
      (∀ d p, q = .first d p ∨ q = .second d p ∨ q = .third d p → SpEvent.asked d p ∈ log ++ evs) →
      aux_sp_Inv (spSet s t q) (log ++ evs) := by
    intro t q evs e2 e4 e5
    have := set t q [] evs e2 (by simp) (by simpa using e4) e5
    simpa using this
  cases op with
  | add t d p =>
    simp only [spStep]
    split
    · refine set0 t _ _ (by simp) (by simp) ?_
      intro d' p' h
      have : d = d' ∧ p = p' := by simpa using h
      simp [this.1, this.2]
    · exact same [] (by simp) (by simp)
  | addRef t d p =>
    simp only [spStep]
    split
    · refine set0 t _ _ (by simp) (by simp) ?_
      intro d' p' h
      have : d = d' ∧ p = p' := by simpa using h
      simp [this.1, this.2]
    · exact same [] (by simp) (by simp)
  | check d p => exact same [.checked d p _] (by simp) (by simp)
  | find d name fs => exact same [.found d name fs _] (by simp) (by simp)
  | go t =>
    simp only [spStep, spGo]
    cases hph : s.phase t with
    | idle => exact same [] (by simp) (by simp)
    | first d p =>
      dsimp only
      split
      · next hm =>
        refine set0 t _ _ (by simp) ?_ (by simp)
        intro d' p' h
        have : d' = d ∧ p' = p := by simpa using h
        rw [this.1, this.2]; exact ⟨p1 t d p hph, .inl hm⟩
      · refine set0 t _ _ (by simp) (by simp) ?_
        intro d' p' h
        have : d = d' ∧ p = p' := by simpa using h
        rw [← this.1, ← this.2]; simpa using p1 t d p hph
    | second d p =>
      dsimp only
      split
      · next hm =>
        refine set0 t _ _ (by simp) ?_ (by simp)
        intro d' p' h
        have : d' = d ∧ p' = p := by simpa using h
        rw [this.1, this.2]; exact ⟨p2 t d p hph, .inr hm⟩
      · refine set0 t _ _ (by simp) (by simp) ?_
        intro d' p' h
        have : d = d' ∧ p = p' := by simpa using h
        rw [← this.1, ← this.2]; simpa using p2 t d p hph
    | third d p =>
      dsimp only
      split
      · next hm =>
        refine set0 t _ _ (by simp) ?_ (by simp)
        intro d' p' h
        have : d' = d ∧ p' = p := by simpa using h
        rw [this.1, this.2]; exact ⟨p3 t d p hph, .inl hm⟩
      · refine set t _ _ _ (by simp) ?_ ?_ (by simp)
        · intro d' p' h
          have : d' = d ∧ p' = p := by simpa using h
          rw [this.1, this.2]; exact p3 t d p hph
        · intro d' p' h
          have : d' = d ∧ p' = p := by simpa using h
          rw [this.1, this.2]; exact ⟨p3 t d p hph, .inl (by simp)⟩

theorem aux_sp_run (sep : String) (domain : String) (ops : List SpOp) : ∀ (s : SearchPaths) (log : List SpEvent), aux_sp_Inv s log →
    spApart (spRun sep s log ops).2 domain → spAllRight sep log domain →
    spAllRight sep (spRun sep s log ops).2 domain := by
  induction ops with
  | nil => intro s log _ _ h; exact h
  | cons op ops ih =>
    intro s log hi ha hr
    have hsub : ∀ (ops : List SpOp) (s : SearchPaths) (l : List SpEvent) e, e ∈ l → e ∈ (spRun sep s l ops).2 := by
      intro ops
      induction ops with
      | nil => intro s l e h; exact h
      | cons o os ih2 => intro s l e h; exact ih2 _ _ e (List.mem_append_left _ h)
    simp only [spRun] at ha ⊢
    have hi' := aux_sp_step sep s log op hi
    refine ih _ _ hi' ha ?_
    have hap : spApart log domain := by
      rcases ha with h | h
      · exact .inl h
      · refine .inr ?_
        intro p h1 h2
        exact h p (hsub _ _ _ _ (List.mem_append_left _ h1)) (hsub _ _ _ _ (List.mem_append_left _ h2))
    -- what a call that returned left behind
    have hret : ∀ (l : List (String × String)) (early : List SpEvent), aux_sp_expl l early → (∀ e ∈ early, e ∈ log) →
        ∀ p, SpEvent.returned domain p ∈ early → (domain, p) ∈ l := by
      intro l early hx hsub' p hp
      rcases hx.2 domain p hp with h | h
      · exact h
      · rcases hap with hd | hd
        · rw [hd]; exact h
        · exact absurd (hsub' _ (hx.1 _ _ h)) (hd p (hi.called _ _ (hsub' _ hp)))
    have hfound : ∀ name fs, spRight sep log domain name fs (spFind sep fs domain name s.nodes) := by
      intro name fs
      refine ⟨?_, ?_⟩
      · intro f hf
        obtain ⟨a, p, b, c⟩ := aux_sp_find_some _ _ _ _ _ _ hf
        exact ⟨a, p, hi.whole.1 _ _ b, c⟩
      · intro early late p hs hp hf
        obtain ⟨l1, l2, a, b⟩ := hi.split early late hs
        have hm := hret l1 early b (fun e he => by rw [hs]; exact List.mem_append_left _ he) p hp
        obtain ⟨q, c, d⟩ := aux_sp_find_early sep fs domain name p l2 l1 hm hf
        exact ⟨q, b.1 _ _ c, by rw [a]; exact d⟩
    have hcheck : ∀ p, spCheckRight log domain p (decide ((domain, p) ∈ s.nodes)) := by
      intro p
      refine ⟨?_, ?_⟩
      · intro h; simpa using hret s.nodes log hi.whole (fun _ h => h) p h
      · intro h; exact hi.whole.1 _ _ (by simpa using h)
    intro before after
    -- what is new is the last event
    have hone : (spStep sep s op).2.length ≤ 1 := by
      cases op <;> simp only [spStep, spGo] <;> (repeat' split) <;> simp
    generalize hevs : (spStep sep s op).2 = evs at hone
    match evs, hone with
    | [], _ => rw [List.append_nil]; exact hr before after
    | [e], _ =>
      refine ⟨?_, ?_⟩
      · intro name fs v h
        rw [show before ++ SpEvent.found domain name fs v :: after = (before ++ [SpEvent.found domain name fs v]) ++ after by simp] at h
        rcases aux_sp_snoc h with ⟨h0, h1⟩ | ⟨b', _, h1⟩
        · have := List.append_inj' h1 rfl
          rw [this.1]
          have he : SpEvent.found domain name fs v = e := by simpa using this.2
          subst he
          cases op <;> simp only [spStep, spGo] at hevs <;> (repeat' split at hevs) <;> simp at hevs
          obtain ⟨e1, e2, e3, e4⟩ := hevs
          subst e1 e2 e3 e4
          exact hfound _ _
        · exact (hr before b').1 name fs v (by rw [h1]; simp)
      · intro path v h
        rw [show before ++ SpEvent.checked domain path v :: after = (before ++ [SpEvent.checked domain path v]) ++ after by simp] at h
        rcases aux_sp_snoc h with ⟨h0, h1⟩ | ⟨b', _, h1⟩
        · have := List.append_inj' h1 rfl
          rw [this.1]
          have he : SpEvent.checked domain path v = e := by simpa using this.2
          subst he
          cases op <;> simp only [spStep, spGo] at hevs <;> (repeat' split at hevs) <;> simp at hevs
          obtain ⟨e1, e2, e3⟩ := hevs
          subst e1 e2
          rw [← e3]
          exact hcheck _
        · exact (hr before b').2 path v (by rw [h1]; simp)

/-- **C97 (partial)**: for every interleaving of calls that add paths and look for files, what is found in a domain is right, if the domain
is "default" or none of its paths is also a path of "default". -/
theorem C97_found_partial (sep : String) (ops : List SpOp) (domain : String) (ha : spApart (spRun sep .init [] ops).2 domain) :
    spAllRight sep (spRun sep .init [] ops).2 domain :=
  aux_sp_run sep domain ops _ _ aux_sp_init ha (by
    intro before after
    exact ⟨by intro _ _ _ h; simp at h, by intro _ _ h; simp at h⟩)

/-- Two threads add paths to two domains at the same time, then files are looked for. -/
def sampleSearch : List SpOp :=
  [.add 0 "default" ".", .go 0, .addRef 1 "tls" "/etc/certs", .go 0, .go 1, .go 1, .go 0, .add 0 "tls" "/home", .go 0, .go 0, .go 0,
   .find "tls" "a" (fun f => f = "/etc/certs/a" || f = "/home/a"), .find "default" "b" (fun f => f = "b"), .check "tls" "/etc/certs",
   .find "tls" "b" (fun f => f = "/home/b")]

/-- What was found. -/
def aux_sp_results (log : List SpEvent) : List (String × String × Option String) :=
  log.filterMap fun | .found d n _ v => some (d, n, v) | _ => none

example : spApart (spRun "/" .init [] sampleSearch).2 "tls" ∧ aux_sp_results (spRun "/" .init [] sampleSearch).2 =
    [("tls", "a", some "/etc/certs/a"), ("default", "b", some "b"), ("tls", "b", some "/home/b")] := by
  refine ⟨.inr ?_, by decide +kernel⟩
  intro p h
  have : p = "/etc/certs" ∨ p = "/home" := by
    simp [sampleSearch, spRun, spStep, spGo, spSet, SearchPaths.init] at h
    exact h
  rcases this with h | h <;> subst h <;> simp [sampleSearch, spRun, spStep, spGo, spSet, SearchPaths.init]

/-- **C97 is violated**: a path that is already searched for the domain "default" cannot be added to another domain; files there are not
found. -/
theorem C97_shadowed (sep path domain name : String) (hd : domain ≠ "default") (fs : String → Bool) :
    aux_sp_results (spRun sep .init [] [.add 0 "default" path, .go 0, .go 0, .go 0, .add 0 domain path, .go 0, .go 0, .go 0,
      .find domain name fs]).2 = [(domain, name, none)] := by
  have h1 : (domain, path) ≠ ("default", path) := by simpa using hd
  simp [spRun, spStep, spGo, spSet, SearchPaths.init, aux_sp_results, hd, spFind, Ne.symm hd]

/-- In the other order both domains get the path. -/
theorem C97_order (sep path domain name : String) (hd : domain ≠ "default") (fs : String → Bool)
    (hf : fs (inDir sep path name) = true) :
    aux_sp_results (spRun sep .init [] [.add 0 domain path, .go 0, .go 0, .go 0, .add 0 "default" path, .go 0, .go 0, .go 0,
      .find domain name fs, .find "default" name fs]).2 =
      [(domain, name, some (inDir sep path name)), ("default", name, some (inDir sep path name))] := by
  have hf' : fs (spFile sep path name) = true := hf
  simp [spRun, spStep, spGo, spSet, SearchPaths.init, aux_sp_results, hd, spFind, Ne.symm hd, hf']
  rfl

example : (fun f => f == "/etc/a") (inDir "/" "/etc" "a") = true := by decide +kernel

theorem C97_statement_false : ¬ C97_statement := by
  intro h
  have := (h "/" [.add 0 "default" ".", .go 0, .go 0, .go 0, .add 0 "tls" ".", .go 0, .go 0, .check "tls" "."] "tls"
    [.asked "default" ".", .returned "default" ".", .asked "tls" ".", .returned "tls" "."] []).2 "." false
    (by simp [spRun, spStep, spGo, spSet, SearchPaths.init])
  have := this.1 (by simp)
  simp at this

/-- A path is in the list at most once for each domain. -/
theorem C97_once (sep : String) (ops : List SpOp) : (spRun sep .init [] ops).1.nodes.Nodup := by
  have h : ∀ (ops : List SpOp) (s : SearchPaths) (log : List SpEvent), s.nodes.Nodup → (spRun sep s log ops).1.nodes.Nodup := by
    intro ops
    induction ops with
    | nil => intro s log h; exact h
    | cons op ops ih =>
      intro s log h
      refine ih _ _ ?_
      cases op <;> simp only [spStep, spGo, spSet] <;> (repeat' split) <;> try exact h
      next hn => exact List.nodup_append.2 ⟨h, by simp, by intro a ha b hb e; simp at hb; subst hb; exact hn (e ▸ ha)⟩
  exact h ops _ _ List.nodup_nil

end Verif.Props
