import Verif.Model.ChannelSearch
/-!
# C129: looking for channels
-/
namespace Verif.Props
open Verif.Model

structure HfOk (x : HfSearch) : Prop where
  split : x.asked.map Prod.fst ++ x.rest = x.snap
  nobody : x.result = none → ∀ a ∈ x.asked, a.2 = false
  found : ∀ c, x.result = some c → x.phase = .ended ∧ ∃ pre, x.asked = pre ++ [(c, true)] ∧ ∀ a ∈ pre, a.2 = false
  all : x.phase = .ended → x.result = none → x.rest = []
  uri : ∀ p, x.kind = .uri p → ∀ a ∈ x.asked, a.2 = (a.1.profile == p)
  count : ∀ p, x.kind = .count p → x.total = (x.asked.map Prod.fst).countP (fun c => c.profile == p) ∧ ∀ a ∈ x.asked, a.2 = false

structure HfInv (s : Hf) : Prop where
  ok : ∀ t x, s.search t = some x → HfOk x
  run : ∀ t x, s.search t = some x → x.phase ≠ .ended → s.owner = some t ∧ x.snap = s.table
  live : ∀ c ∈ s.table, c.id < s.next ∧ c.id ∉ s.freed
  refs : ∀ r ∈ s.refs, r.2 < s.next ∧ r.2 ∉ s.freed
  freed : ∀ i ∈ s.freed, i < s.next

theorem aux_hf_new (k : HfKind) (l : List HfChan) : HfOk ⟨k, l, l, [], 0, none, .running, false⟩ := by
  constructor <;> simp

theorem aux_hf_ask (x : HfSearch) (c : HfChan) (rest : List HfChan) (answer : Bool) (h : HfOk x) (hr : x.rest = c :: rest) (hp : x.phase = .running) :
    let y : HfSearch := { x with rest := rest, asked := x.asked ++ [(c, x.kind.answer c answer)], total := x.total + x.kind.adds c }
    (x.kind.answer c answer = true → HfOk { y with result := some c, phase := .ended }) ∧ (x.kind.answer c answer = false → HfOk y) := by
  obtain ⟨h1, h2, h3, h4, h5, h6⟩ := h
  have hn : x.result = none := by
    rcases hx : x.result with _ | d
    · rfl
    · have := (h3 d hx).1; rw [hp] at this; cases this
  have hu : ∀ p, x.kind = .uri p → ∀ a ∈ x.asked ++ [(c, x.kind.answer c answer)], a.2 = (a.1.profile == p) := by
    intro p hk a ha
    rcases List.mem_append.mp ha with ha | ha
    · exact h5 p hk a ha
    · simp at ha; subst ha; simp [hk, HfKind.answer]
  have hc : ∀ p, x.kind = .count p → x.total + x.kind.adds c = ((x.asked ++ [(c, x.kind.answer c answer)]).map Prod.fst).countP (fun c => c.profile == p) ∧
      ∀ a ∈ x.asked ++ [(c, x.kind.answer c answer)], a.2 = false := by
    intro p hk
    refine ⟨?_, ?_⟩
    · rw [List.map_append, List.countP_append, (h6 p hk).1]
      simp [hk, HfKind.adds, List.countP_cons]
    · intro a ha
      rcases List.mem_append.mp ha with ha | ha
      · exact (h6 p hk).2 a ha
      · simp at ha; subst ha; simp [hk, HfKind.answer]
  refine ⟨fun ha => ⟨?_, ?_, ?_, ?_, hu, hc⟩, fun ha => ⟨?_, ?_, ?_, ?_, hu, hc⟩⟩
  · simp [← h1, hr]
  · simp
  · intro d hd
    simp at hd; subst hd
    exact ⟨rfl, x.asked, by simp [ha], h2 hn⟩
  · simp
  · simp [← h1, hr]
  · intro _ a hm
    simp only [List.mem_append, List.mem_singleton] at hm
    rcases hm with hm | hm
    · exact h2 hn a hm
    · subst hm; exact ha
  · intro d hd; simp [hn] at hd
  · intro he; simp [hp] at he

theorem aux_hf_settle (s : Hf) (id : Nat) (hid : id < s.next) (h : HfInv s) : HfInv (s.settle id) := by
  obtain ⟨h1, h2, h3, h4, h5⟩ := h
  simp only [Hf.settle]
  split
  · exact ⟨h1, h2, h3, h4, h5⟩
  · rename_i hn
    simp only [Bool.or_eq_true, List.any_eq_true, not_or, not_exists, not_and, beq_iff_eq] at hn
    refine ⟨h1, h2, ?_, ?_, ?_⟩
    · intro c hc
      refine ⟨(h3 c hc).1, ?_⟩
      simp only [List.mem_cons, not_or]
      exact ⟨hn.1 c hc, (h3 c hc).2⟩
    · intro r hr
      refine ⟨(h4 r hr).1, ?_⟩
      simp only [List.mem_cons, not_or]
      exact ⟨hn.2 r hr, (h4 r hr).2⟩
    · intro i hi
      rcases List.mem_cons.mp hi with hi | hi
      · rw [hi]; exact hid
      · exact h5 i hi

theorem aux_hf_set (s : Hf) (t : Nat) (x : HfSearch) (h : HfInv s) (hx : HfOk x) (hr : x.phase ≠ .ended → s.owner = some t ∧ x.snap = s.table) :
    HfInv (s.set t x) := by
  obtain ⟨h1, h2, h3, h4, h5⟩ := h
  refine ⟨?_, ?_, h3, h4, h5⟩
  · intro u y hy
    simp only [Hf.set] at hy
    split at hy
    · cases hy; exact hx
    · exact h1 u y hy
  · intro u y hy
    simp only [Hf.set] at hy ⊢
    split at hy
    · rename_i hu; cases hy; rw [hu]; exact hr
    · exact h2 u y hy

theorem aux_hf_begin (s : Hf) (t : Nat) (k : HfKind) (h : HfInv s) (ho : s.owner = none) :
    HfInv ({ s with owner := some t }.set t ⟨k, s.table, s.table, [], 0, none, .running, false⟩) := by
  have hn : ∀ u y, s.search u = some y → y.phase = .ended := by
    intro u y hy
    by_cases he : y.phase = .ended
    · exact he
    · have := (h.run u y hy he).1; rw [ho] at this; cases this
  refine aux_hf_set _ _ _ ⟨h.ok, ?_, h.live, h.refs, h.freed⟩ (aux_hf_new k s.table) (fun _ => ⟨rfl, rfl⟩)
  intro u y hy he
  exact absurd (hn u y hy) he

theorem aux_hf_release (s : Hf) (t : Nat) (x x' : HfSearch) (h : HfInv s) (hx : s.search t = some x) (hp : x.phase = .running)
    (hx' : HfOk x') (he : x'.phase = .ended) : HfInv ({ s with owner := none }.set t x') := by
  have ho := (h.run t x hx (by rw [hp]; simp)).1
  refine ⟨?_, ?_, h.live, h.refs, h.freed⟩
  · intro u y hy
    simp only [Hf.set] at hy
    split at hy
    · cases hy; exact hx'
    · exact h.ok u y hy
  · intro u y hy hne
    simp only [Hf.set] at hy
    split at hy
    · cases hy; exact absurd he hne
    · rename_i hu
      have := (h.run u y hy hne).1
      rw [ho] at this
      injection this with this
      exact absurd this.symm hu

theorem aux_hf_ref (s : Hf) (t : Nat) (c : HfChan) (hc : c ∈ s.table) (h : HfInv s) : HfInv { s with refs := (t, c.id) :: s.refs } := by
  refine ⟨h.ok, h.run, h.live, ?_, h.freed⟩
  intro r hr
  rcases List.mem_cons.mp hr with hr | hr
  · rw [hr]; exact h.live c hc
  · exact h.refs r hr

theorem aux_hf_advance (s : Hf) (t : Nat) (x : HfSearch) (answer ref : Bool) (h : HfInv s) (hx : s.search t = some x) (hp : x.phase = .running) :
    HfInv (s.advance t x answer ref) := by
  have hok := h.ok t x hx
  have hrun := h.run t x hx (by rw [hp]; simp)
  have hn : x.result = none := by
    rcases hr : x.result with _ | d
    · rfl
    · have := (hok.found d hr).1; rw [hp] at this; cases this
  simp only [Hf.advance]
  split
  · rename_i hr
    refine aux_hf_release s t x _ h hx hp ?_ rfl
    exact ⟨hok.split, hok.nobody, fun c hc => absurd hc (by simp [hn]), fun _ _ => hr, hok.uri, hok.count⟩
  · rename_i c rest hr
    have hask := aux_hf_ask x c rest answer hok hr hp
    have hmem : c ∈ s.table := by rw [← hrun.2, ← hok.split, hr]; simp
    generalize hs' : (if ref = true ∧ x.kind = HfKind.func then ({ s with refs := (t, c.id) :: s.refs } : Hf) else s) = s'
    have hs1 : HfInv s' := by
      rw [← hs']; split
      · exact aux_hf_ref s t c hmem h
      · exact h
    have hs2 : s'.search = s.search := by rw [← hs']; split <;> rfl
    have hs3 : s'.owner = s.owner ∧ s'.table = s.table := by rw [← hs']; split <;> exact ⟨rfl, rfl⟩
    split
    · rename_i ha
      exact aux_hf_release s' t x _ hs1 (by rw [hs2]; exact hx) hp (hask.1 ha) rfl
    · rename_i ha
      exact aux_hf_set s' t _ hs1 (hask.2 (by simpa using ha)) (fun _ => by rw [hs3.1, hs3.2]; exact hrun)

theorem aux_hf_step (s : Hf) (op : HfOp) (h : HfInv s) : HfInv (s.step op) := by
  cases op with
  | start num profile =>
    simp only [Hf.step]
    split
    · rename_i hc
      refine ⟨h.ok, ?_, ?_, ?_, ?_⟩
      · intro t x hx he; have := (h.run t x hx he).1; rw [hc.1] at this; cases this
      · intro c hm
        rcases List.mem_append.mp hm with hm | hm
        · exact ⟨Nat.lt_succ_of_lt (h.live c hm).1, (h.live c hm).2⟩
        · simp at hm; subst hm
          exact ⟨Nat.lt_succ_self _, fun hf => absurd (h.freed _ hf) (Nat.lt_irrefl _)⟩
      · intro r hr; exact ⟨Nat.lt_succ_of_lt (h.refs r hr).1, (h.refs r hr).2⟩
      · intro i hi; exact Nat.lt_succ_of_lt (h.freed i hi)
    · exact h
  | close num =>
    simp only [Hf.step]
    split
    · rename_i c ho hf
      have hm := List.mem_of_find?_eq_some hf
      refine aux_hf_settle _ _ (h.live c hm).1 ⟨h.ok, ?_, ?_, h.refs, h.freed⟩
      · intro t x hx he; have := (h.run t x hx he).1; rw [ho] at this; cases this
      · intro d hd; exact h.live d (List.mem_filter.mp hd).1
    · exact h
  | begin t kind =>
    simp only [Hf.step]
    split
    · rename_i ho hx; exact aux_hf_begin s t kind h ho
    · rename_i ho hx
      split
      · exact aux_hf_begin s t kind h ho
      · exact h
    · exact h
  | next t answer ref =>
    simp only [Hf.step]
    split
    · rename_i x hx
      split
      · exact aux_hf_advance s t x answer ref h hx (by assumption)
      · exact h
    · exact h
  | enter t =>
    simp only [Hf.step]
    split
    · rename_i x hx
      split
      · rename_i hc
        have hok := h.ok t x hx
        have hrun := h.run t x hx (by rw [hc.1]; simp)
        refine aux_hf_set s t _ h ⟨hok.split, hok.nobody, ?_, fun he => (by cases he), hok.uri, hok.count⟩ (fun _ => hrun)
        intro c hc'
        have := (hok.found c hc').1; rw [hc.1] at this; cases this
      · exact h
    · exact h
  | use t =>
    simp only [Hf.step]
    split
    · split
      · split
        · exact h
        · exact ⟨h.ok, h.run, h.live, h.refs, h.freed⟩
      · exact h
    · exact h
  | unref t =>
    simp only [Hf.step]
    split
    · rename_i x hx
      split
      · rename_i c hc
        split
        · rename_i hr
          have hok := h.ok t x hx
          refine aux_hf_settle _ _ (h.refs _ hr.1).1 (aux_hf_set _ _ _ ⟨h.ok, h.run, h.live, ?_, h.freed⟩ ?_ ?_)
          · intro r hm; exact h.refs r (List.mem_filter.mp hm).1
          · exact ⟨hok.split, hok.nobody, hok.found, hok.all, hok.uri, hok.count⟩
          · exact fun he => h.run t x hx he
        · exact h
      · exact h
    · exact h

theorem aux_hf_run (ops : List HfOp) : ∀ s : Hf, HfInv s → HfInv (s.run ops) := by
  induction ops with
  | nil => intro s h; exact h
  | cons o ops ih => intro s h; exact ih _ (aux_hf_step s o h)

theorem aux_hf_init : HfInv Hf.init := by constructor <;> simp [Hf.init]

/-- **C129**, part: while a thread looks for channels, the table stays as it was when the search began, and no channel in it is released. -/
theorem C129_table_partial (ops : List HfOp) (t : Nat) (x : HfSearch) (h : (Hf.init.run ops).search t = some x) (hr : x.phase ≠ .ended) :
    x.snap = (Hf.init.run ops).table ∧ ∀ c ∈ x.snap, c.id ∉ (Hf.init.run ops).freed := by
  have hi := aux_hf_run ops _ aux_hf_init
  have := hi.run t x h hr
  exact ⟨this.2, fun c hc => (hi.live c (this.2 ▸ hc)).2⟩

/-- **C129**, part: a search by profile gives the first channel in the table that runs it, or none. -/
theorem C129_uri_partial (ops : List HfOp) (t p : Nat) (x : HfSearch) (h : (Hf.init.run ops).search t = some x) (hk : x.kind = .uri p)
    (he : x.phase = .ended) : x.result = x.snap.find? (fun c => c.profile == p) := by
  obtain ⟨h1, h2, h3, h4, h5, _⟩ := (aux_hf_run ops _ aux_hf_init).ok t x h
  have hu := h5 p hk
  rcases hr : x.result with _ | c
  · rw [← h1, h4 he hr, List.append_nil]
    symm
    rw [List.find?_eq_none]
    intro c hc
    obtain ⟨a, ha, hac⟩ := List.mem_map.mp hc
    have := hu a ha
    rw [h2 hr a ha] at this
    rw [← hac, ← this]; simp
  · obtain ⟨_, pre, hp, hf⟩ := h3 c hr
    rw [← h1, hp]
    simp only [List.map_append, List.map_cons, List.map_nil, List.append_assoc]
    rw [List.find?_append]
    have hnone : (pre.map Prod.fst).find? (fun c => c.profile == p) = none := by
      rw [List.find?_eq_none]
      intro d hd
      obtain ⟨a, ha, hac⟩ := List.mem_map.mp hd
      have := hu a (by rw [hp]; exact List.mem_append_left _ ha)
      rw [hf a ha] at this
      rw [← hac, ← this]; simp
    have hc := hu (c, true) (by rw [hp]; simp)
    rw [hnone]
    simp [← hc]

/-- **C129**, part: the function of the application is asked for each channel of the table in turn, once, until it says yes; that channel
is the result. If it never says yes, it was asked for all channels, and there is no result. -/
theorem C129_func_partial (ops : List HfOp) (t : Nat) (x : HfSearch) (h : (Hf.init.run ops).search t = some x) (he : x.phase = .ended) :
    (x.asked.map Prod.fst) <+: x.snap ∧
    match x.result with
    | some c => ∃ pre, x.asked = pre ++ [(c, true)] ∧ ∀ a ∈ pre, a.2 = false
    | none => x.asked.map Prod.fst = x.snap ∧ ∀ a ∈ x.asked, a.2 = false := by
  obtain ⟨h1, h2, h3, h4, h5, _⟩ := (aux_hf_run ops _ aux_hf_init).ok t x h
  refine ⟨⟨x.rest, h1⟩, ?_⟩
  split
  · rename_i c hc; exact (h3 c hc).2
  · rename_i hn
    have := h4 he hn
    rw [this, List.append_nil] at h1
    exact ⟨h1, h2 hn⟩

/-- **C129**, part: channels of a profile are counted exactly. -/
theorem C129_count_partial (ops : List HfOp) (t p : Nat) (x : HfSearch) (h : (Hf.init.run ops).search t = some x) (hk : x.kind = .count p)
    (he : x.phase = .ended) : x.total = x.snap.countP (fun c => c.profile == p) := by
  obtain ⟨h1, h2, h3, h4, _, h6⟩ := (aux_hf_run ops _ aux_hf_init).ok t x h
  have hn : x.result = none := by
    rcases hr : x.result with _ | c
    · rfl
    · obtain ⟨_, pre, hp, _⟩ := h3 c hr
      have := (h6 p hk).2 (c, true) (by rw [hp]; simp)
      simp at this
  rw [(h6 p hk).1, ← h1, h4 he hn, List.append_nil]

example : ((Hf.init.run [.start 0 9, .start 1 5, .start 3 5, .begin 7 (.uri 5), .start 4 4, .next 7 false false, .next 7 false false]).search 7).map
    (fun x => (x.result, x.phase, x.asked.length)) = some (some ⟨1, 1, 5⟩, .ended, 2) := by decide +kernel

example : ((Hf.init.run [.start 0 9, .start 1 5, .start 3 5, .begin 7 (.count 5), .next 7 false false, .next 7 false false, .next 7 false false,
    .next 7 false false]).search 7).map (fun x => (x.total, x.phase)) = some (2, .ended) := by decide +kernel

example : ((Hf.init.run [.start 0 9, .start 1 5, .begin 7 .func, .next 7 false false, .next 7 false false, .next 7 false false]).search 7).map
    (fun x => (x.result, x.phase, x.asked.length)) = some (none, .ended, 2) := by decide +kernel

/-- What the functions of the application have to do: take a reference of the channel for which they say yes. -/
def HfHeld (s : Hf) : Prop :=
  ∀ t x, s.search t = some x → (∀ p, x.kind ≠ .uri p) ∧ ∀ c, x.result = some c → x.dropped = false → (t, c.id) ∈ s.refs

theorem aux_hf_heldSet (s : Hf) (t : Nat) (x : HfSearch) (h : HfHeld s) (hk : ∀ p, x.kind ≠ .uri p)
    (hx : ∀ c, x.result = some c → x.dropped = false → (t, c.id) ∈ s.refs) : HfHeld (s.set t x) := by
  intro u y hy
  simp only [Hf.set] at hy ⊢
  split at hy
  · rename_i hu; cases hy; rw [hu]; exact ⟨hk, hx⟩
  · exact h u y hy

theorem aux_hf_settle_eq (s : Hf) (id : Nat) : (s.settle id).search = s.search ∧ (s.settle id).refs = s.refs ∧ (s.settle id).bad = s.bad := by
  simp only [Hf.settle]; split <;> exact ⟨rfl, rfl, rfl⟩

def hfGood : HfOp → Bool
  | .begin _ (.uri _) => false
  | .next _ true false => false
  | _ => true

theorem aux_hf_heldStep (s : Hf) (op : HfOp) (hi : HfInv s) (hop : hfGood op = true) (h : HfHeld s) (hb : s.bad = false) :
    HfHeld (s.step op) ∧ (s.step op).bad = false := by
  cases op with
  | start num profile => simp only [Hf.step]; split <;> exact ⟨h, hb⟩
  | close num =>
    simp only [Hf.step]
    split
    · refine ⟨?_, by rw [(aux_hf_settle_eq _ _).2.2]; exact hb⟩
      intro t x hx
      rw [(aux_hf_settle_eq _ _).1] at hx
      rw [(aux_hf_settle_eq _ _).2.1]
      exact h t x hx
    · exact ⟨h, hb⟩
  | begin t kind =>
    have hk : ∀ p, kind ≠ .uri p := by intro p hp; rw [hp] at hop; simp [hfGood] at hop
    simp only [Hf.step]
    split
    · exact ⟨aux_hf_heldSet _ _ _ h hk (fun c hc => by simp at hc), hb⟩
    · split
      · exact ⟨aux_hf_heldSet _ _ _ h hk (fun c hc => by simp at hc), hb⟩
      · exact ⟨h, hb⟩
    · exact ⟨h, hb⟩
  | next t answer ref =>
    simp only [Hf.step]
    split
    · rename_i x hx
      split
      · rename_i hp
        have hk := (h t x hx).1
        have hn : x.result = none := by
          rcases hr : x.result with _ | d
          · rfl
          · have := ((hi.ok t x hx).found d hr).1; rw [hp] at this; cases this
        simp only [Hf.advance]
        split
        · exact ⟨aux_hf_heldSet _ _ _ h hk (fun c hc => by simp [hn] at hc), hb⟩
        · rename_i c rest hr
          generalize hs' : (if ref = true ∧ x.kind = HfKind.func then ({ s with refs := (t, c.id) :: s.refs } : Hf) else s) = s'
          have h' : HfHeld s' := by
            rw [← hs']; split
            · intro u y hy; exact ⟨(h u y hy).1, fun d hd hd' => List.mem_cons_of_mem _ ((h u y hy).2 d hd hd')⟩
            · exact h
          have hb' : s'.bad = false := by rw [← hs']; split <;> exact hb
          split
          · rename_i ha
            have hfun : x.kind = .func := by
              rcases hkk : x.kind with p | _ | p
              · exact absurd hkk (hk p)
              · rfl
              · simp [hkk, HfKind.answer] at ha
            have href : ref = true := by
              simp only [hfun, HfKind.answer] at ha
              subst ha
              cases ref
              · simp [hfGood] at hop
              · rfl
            refine ⟨aux_hf_heldSet _ _ _ h' hk ?_, hb'⟩
            intro d hd _
            simp at hd; subst hd
            simp only
            rw [← hs', if_pos ⟨href, hfun⟩]; simp
          · exact ⟨aux_hf_heldSet _ _ _ h' hk (fun d hd => by simp [hn] at hd), hb'⟩
      · exact ⟨h, hb⟩
    · exact ⟨h, hb⟩
  | enter t =>
    simp only [Hf.step]
    split
    · rename_i x hx
      split
      · exact ⟨aux_hf_heldSet _ _ _ h (h t x hx).1 (h t x hx).2, hb⟩
      · exact ⟨h, hb⟩
    · exact ⟨h, hb⟩
  | use t =>
    simp only [Hf.step]
    split
    · rename_i x hx
      split
      · rename_i c hc
        split
        · exact ⟨h, hb⟩
        · rename_i hd
          have := (hi.refs _ ((h t x hx).2 c hc (by simpa using hd))).2
          exact ⟨h, by simp [hb, this]⟩
      · exact ⟨h, hb⟩
    · exact ⟨h, hb⟩
  | unref t =>
    simp only [Hf.step]
    split
    · rename_i x hx
      split
      · rename_i c hc
        split
        · refine ⟨?_, by rw [(aux_hf_settle_eq _ _).2.2]; exact hb⟩
          intro u y hy
          rw [(aux_hf_settle_eq _ _).1] at hy
          rw [(aux_hf_settle_eq _ _).2.1]
          simp only [Hf.set] at hy ⊢
          split at hy
          · cases hy; exact ⟨(h t x hx).1, fun d _ hd => by simp at hd⟩
          · rename_i hu
            refine ⟨(h u y hy).1, fun d hd hd' => ?_⟩
            rw [List.mem_filter]
            refine ⟨(h u y hy).2 d hd hd', ?_⟩
            simp [hu]
        · exact ⟨h, hb⟩
      · exact ⟨h, hb⟩
    · exact ⟨h, hb⟩

theorem aux_hf_heldRun (ops : List HfOp) (hops : ∀ op ∈ ops, hfGood op = true) : ∀ s : Hf, HfInv s → HfHeld s → s.bad = false →
    (s.run ops).bad = false := by
  induction ops with
  | nil => intro s _ _ h; exact h
  | cons o ops ih =>
    intro s hi h hb
    have := aux_hf_heldStep s o hi (hops o (List.mem_cons_self ..)) h hb
    exact ih (fun op hm => hops op (List.mem_cons_of_mem _ hm)) _ (aux_hf_step s o hi) this.1 this.2

/-- **C129**, part: if channels are looked for with functions that take a reference of the channel they choose, no released channel is used,
however channels start and end. -/
theorem C129_held_partial (ops : List HfOp) (h1 : ∀ t p, HfOp.begin t (.uri p) ∉ ops) (h2 : ∀ t, HfOp.next t true false ∉ ops) :
    (Hf.init.run ops).bad = false := by
  refine aux_hf_heldRun ops ?_ _ aux_hf_init (by intro t x hx; simp [Hf.init] at hx) rfl
  intro op hm
  unfold hfGood
  split
  · exact absurd hm (h1 _ _)
  · exact absurd hm (h2 _)
  · rfl

example : let s := Hf.init.run [.start 0 9, .start 1 5, .begin 7 .func, .next 7 false false, .next 7 true true, .close 1, .use 7, .unref 7]
    (s.bad, s.freed, s.table) = (false, [1], [⟨0, 0, 9⟩]) := by decide +kernel

/-- The channel found may be released before its finder can use it, found by profile or by a function. -/
theorem C129_gone : (Hf.init.run [.start 1 5, .begin 7 (.uri 5), .next 7 false false, .close 1, .use 7]).bad = true ∧
    (Hf.init.run [.start 1 5, .begin 7 .func, .next 7 true false, .close 1, .use 7]).bad = true := by decide +kernel

theorem aux_hf_stuck (ops : List HfOp) (t : Nat) : ∀ (s : Hf) (x : HfSearch), HfInv s → s.search t = some x → x.phase = .stuck →
    (s.run ops).search t = some x ∧ (s.run ops).table = s.table ∧ (s.run ops).owner = some t := by
  induction ops with
  | nil => intro s x hi hx hp; exact ⟨hx, rfl, (hi.run t x hx (by rw [hp]; simp)).1⟩
  | cons o ops ih =>
    intro s x hi hx hp
    have ho := (hi.run t x hx (by rw [hp]; simp)).1
    have hres : x.result = none := by
      rcases hr : x.result with _ | d
      · rfl
      · have := ((hi.ok t x hx).found d hr).1; rw [hp] at this; cases this
    have hoth : ∀ u y, s.search u = some y → u ≠ t → y.phase = .ended := by
      intro u y hy hu
      by_cases he : y.phase = .ended
      · exact he
      · have := (hi.run u y hy he).1; rw [ho] at this; injection this with this; exact absurd this.symm hu
    have key : (s.step o).search t = some x ∧ (s.step o).table = s.table := by
      cases o with
      | start num profile => simp [Hf.step, ho, hx]
      | close num => simp [Hf.step, ho, hx]
      | begin u k => simp [Hf.step, ho, hx]
      | next u a r =>
        simp only [Hf.step]
        split
        · rename_i y hy
          split
          · rename_i hyp
            by_cases hu : u = t
            · subst hu; rw [hx] at hy; cases hy; rw [hp] at hyp; cases hyp
            · have := hoth u y hy hu; rw [hyp] at this; cases this
          · exact ⟨hx, rfl⟩
        · exact ⟨hx, rfl⟩
      | enter u =>
        simp only [Hf.step]
        split
        · rename_i y hy
          split
          · rename_i hyp
            by_cases hu : u = t
            · subst hu; rw [hx] at hy; cases hy; rw [hp] at hyp; exact absurd hyp.1 (by simp)
            · have := hoth u y hy hu; rw [hyp.1] at this; cases this
          · exact ⟨hx, rfl⟩
        · exact ⟨hx, rfl⟩
      | use u => simp only [Hf.step]; repeat' split
                 all_goals exact ⟨hx, rfl⟩
      | unref u =>
        simp only [Hf.step]
        split
        · rename_i y hy
          split
          · rename_i c hc
            split
            · by_cases hu : u = t
              · subst hu; rw [hx] at hy; cases hy; rw [hres] at hc; cases hc
              · have hset : ∀ (a : Hf) (z : HfSearch), ((a.set u z).settle c.id).search t = a.search t ∧ ((a.set u z).settle c.id).table = a.table := by
                  intro a z
                  constructor
                  · rw [(aux_hf_settle_eq _ _).1]; simp [Hf.set, Ne.symm hu]
                  · simp only [Hf.settle]; split <;> rfl
                exact ⟨((hset _ _).1).trans hx, (hset _ _).2⟩
            · exact ⟨hx, rfl⟩
          · exact ⟨hx, rfl⟩
        · exact ⟨hx, rfl⟩
    have := ih (s.step o) x (aux_hf_step s o hi) key.1 hp
    exact ⟨this.1, this.2.1.trans key.2, this.2.2⟩

/-- A function that uses the connection it looks through blocks its thread for ever; no channel starts or ends any more. -/
theorem C129_blocked (ops : List HfOp) : let s := Hf.init.run ([.start 1 5, .begin 7 .func, .enter 7] ++ ops)
    s.owner = some 7 ∧ s.table = [⟨0, 1, 5⟩] := by
  have hi := aux_hf_run [.start 1 5, .begin 7 .func, .enter 7] _ aux_hf_init
  have hx : (Hf.init.run [.start 1 5, .begin 7 .func, .enter 7]).search 7 = some ⟨.func, [⟨0, 1, 5⟩], [⟨0, 1, 5⟩], [], 0, none, .stuck, false⟩ := by
    decide +kernel
  have := aux_hf_stuck ops 7 _ _ hi hx rfl
  simp only [Hf.run, List.foldl_append] at this ⊢
  exact ⟨this.2.2, this.2.1.trans (by decide +kernel)⟩

/-- **C129**, the full property. -/
def C129_statement : Prop :=
  ∀ ops : List HfOp, let s := Hf.init.run ops
    s.bad = false ∧ ∀ t x, s.search t = some x → x.phase ≠ .stuck ∧
      (x.phase = .ended → match x.kind with
        | .uri p => x.result = x.snap.find? (fun c => c.profile == p)
        | .count p => x.total = x.snap.countP (fun c => c.profile == p)
        | .func => True)

theorem C129_statement_false : ¬ C129_statement := by
  intro h
  have := (h [.start 1 5, .begin 7 (.uri 5), .next 7 false false, .close 1, .use 7]).1
  rw [C129_gone.1] at this
  cases this

end Verif.Props
