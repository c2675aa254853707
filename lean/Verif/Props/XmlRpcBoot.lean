import Verif.Spec.XmlRpcBoot
/-!
# C116: booting XML-RPC channels
-/
namespace Verif.Props
open Verif.Model Verif.Spec

/-- C116: each boot is told one result, once it is finished exactly one: the ready channel if the peer accepted the resource, or a failure
without channel, after which none is left open, with a text that can be read. The library keeps nothing of a finished boot. -/
def C116_statement : Prop :=
  ∀ (ops : List BoOp) (k : Nat) (b : BoBoot),
    let s := BoState.init.run ops
    s.boots[k]? = some b →
      b.told.length ≤ 1 ∧
      (BoBoot.finished b → b.told.length = 1 ∧ b.refs = 0 ∧ b.name ≠ .lost) ∧
      ∀ r, r ∈ b.told → (r.ok = true → boSucceeded k b r) ∧ (r.ok = false → boFailed b r) ∧ boReadable s b r

/-- What a step does to one boot; `n`: the number of texts before. -/
inductive AuxBoMove (n k : Nat) : BoOp → BoBoot → BoBoot → Prop
  | created {b} (h : b.phase = .queued) :
      AuxBoMove n k (.create k true) b { b with phase := .created, chan := .opened, name := if b.name = .copied then .attached else b.name }
  | notCreated {b} (h : b.phase = .queued) :
      AuxBoMove n k (.create k false) b (BoBoot.notify { b with phase := .over, name := if b.name = .copied then .lost else b.name } ⟨false, none, .text n⟩)
  | nothing {b} (h : b.phase = .created) :
      AuxBoMove n k (.first k none) b (BoBoot.notify { b with phase := .over, reply := some none } ⟨false, none, .static⟩)
  | error {b} (h : b.phase = .created) (t : Bool) :
      AuxBoMove n k (.first k (some (t, .error))) b (BoBoot.notify { b with phase := .over, reply := some (some (t, .error)), chan := .closed, name := if b.name = .attached then .released else b.name } ⟨false, some k, .text n⟩)
  | other {b} (h : b.phase = .created) (t : Bool) :
      AuxBoMove n k (.first k (some (t, .other))) b (BoBoot.notify { b with phase := .over, reply := some (some (t, .other)), chan := .closed, name := if b.name = .attached then .released else b.name } ⟨false, some k, .static⟩)
  | accepted {b} (h : b.phase = .created) (t : Bool) :
      AuxBoMove n k (.first k (some (t, .bootrpy))) b (BoBoot.notify { b with phase := .over, reply := some (some (t, .bootrpy)), chan := .ready } ⟨true, some k, .static⟩)
  | took {b} (r : BoResult) (p : b.pushed = some r) (w : b.wait = .waiting) :
      AuxBoMove n k (.take k) b { b with wait := .got, refs := b.refs - 1, pushed := none, told := b.told ++ [⟨r.ok, if r.ok then r.chan else none, r.msg⟩] }
  | gave {b} (p : b.pushed = none) (w : b.wait = .waiting) :
      AuxBoMove n k (.giveUp k) b { b with wait := .gaveUp, told := b.told ++ [⟨false, none, .static⟩] }

/-- A boot just asked for. -/
inductive AuxBoNew : BoOp → BoBoot → Prop
  | down (sync name : Bool) : AuxBoNew (.boot sync false name) ⟨sync, .over, .none, .none, .none, 0, none, [⟨false, none, if sync then .unset else .static⟩], none⟩
  | up (sync name : Bool) : AuxBoNew (.boot sync true name)
      ⟨sync, .queued, .none, if name then .copied else .none, if sync then .waiting else .none, if sync then 2 else 0, none, [], none⟩

theorem aux_bo_move (s : BoState) (op : BoOp) (j : Nat) (b' : BoBoot) (h : (s.step op).boots[j]? = some b') :
    s.boots[j]? = some b' ∨ AuxBoNew op b' ∨ ∃ b, s.boots[j]? = some b ∧ AuxBoMove s.texts.length j op b b' := by
  have upd : ∀ (k : Nat) (b x : BoBoot), s.boots[k]? = some b → (s.boots.set k x)[j]? = some b' → s.boots[j]? = some b' ∨ (k = j ∧ x = b') := by
    intro k b x hk h
    by_cases q : k = j
    · subst q
      have hlt : k < s.boots.length := by
        rcases Nat.lt_or_ge k s.boots.length with z | z
        · exact z
        · rw [List.getElem?_eq_none z] at hk; cases hk
      rw [List.getElem?_set_self hlt] at h
      exact .inr ⟨rfl, Option.some.inj h⟩
    · rw [List.getElem?_set_ne q] at h; exact .inl h
  have app : ∀ x : BoBoot, (s.boots ++ [x])[j]? = some b' → s.boots[j]? = some b' ∨ x = b' := by
    intro x h
    rcases Nat.lt_trichotomy j s.boots.length with q | q | q
    · rw [List.getElem?_append_left q] at h; exact .inl h
    · subst q; simp at h; exact .inr h
    · rw [List.getElem?_eq_none (by simp; omega)] at h; cases h
  cases op with
  | boot sync up name =>
    cases up with
    | false =>
      rcases app _ h with q | q
      · exact .inl q
      · subst q; exact .inr (.inl (.down sync name))
    | true =>
      rcases app _ h with q | q
      · exact .inl q
      · subst q; exact .inr (.inl (.up sync name))
  | create k ok =>
    simp only [BoState.step] at h
    cases hk : s.boots[k]? with
    | none => simp only [hk] at h; exact .inl h
    | some b =>
      simp only [hk] at h
      by_cases hp : b.phase = .queued
      · rw [if_pos hp] at h
        cases ok with
        | true =>
          rcases upd k b _ hk h with q | ⟨q, e⟩
          · exact .inl q
          · subst q; subst e; exact .inr (.inr ⟨b, hk, .created hp⟩)
        | false =>
          rcases upd k b _ hk h with q | ⟨q, e⟩
          · exact .inl q
          · subst q; subst e; exact .inr (.inr ⟨b, hk, .notCreated hp⟩)
      · rw [if_neg hp] at h; exact .inl h
  | first k r =>
    simp only [BoState.step] at h
    cases hk : s.boots[k]? with
    | none => simp only [hk] at h; exact .inl h
    | some b =>
      simp only [hk] at h
      by_cases hp : b.phase = .created
      · rw [if_pos hp] at h
        match r with
        | none =>
          rcases upd k b _ hk h with q | ⟨q, e⟩
          · exact .inl q
          · subst q; subst e; exact .inr (.inr ⟨b, hk, .nothing hp⟩)
        | some (t, .error) =>
          rcases upd k b _ hk h with q | ⟨q, e⟩
          · exact .inl q
          · subst q; subst e; exact .inr (.inr ⟨b, hk, .error hp t⟩)
        | some (t, .other) =>
          rcases upd k b _ hk h with q | ⟨q, e⟩
          · exact .inl q
          · subst q; subst e; exact .inr (.inr ⟨b, hk, .other hp t⟩)
        | some (t, .bootrpy) =>
          rcases upd k b _ hk h with q | ⟨q, e⟩
          · exact .inl q
          · subst q; subst e; exact .inr (.inr ⟨b, hk, .accepted hp t⟩)
      · rw [if_neg hp] at h; exact .inl h
  | take k =>
    simp only [BoState.step] at h
    cases hk : s.boots[k]? with
    | none => simp only [hk] at h; exact .inl h
    | some b =>
      simp only [hk] at h
      cases hp : b.pushed with
      | none => simp only [hp] at h; exact .inl h
      | some r =>
        simp only [hp] at h
        by_cases hw : b.wait = .waiting
        · rw [if_pos hw] at h
          rcases upd k b _ hk h with q | ⟨q, e⟩
          · exact .inl q
          · subst q; subst e
            refine .inr (.inr ⟨b, hk, ?_⟩)
            have := AuxBoMove.took (n := s.texts.length) (k := k) r hp hw
            simpa only [hp] using this
        · rw [if_neg hw] at h; exact .inl h
  | giveUp k =>
    simp only [BoState.step] at h
    cases hk : s.boots[k]? with
    | none => simp only [hk] at h; exact .inl h
    | some b =>
      simp only [hk] at h
      cases hp : b.pushed with
      | some r => simp only [hp] at h; exact .inl h
      | none =>
        simp only [hp] at h
        by_cases hw : b.wait = .waiting
        · rw [if_pos hw] at h
          rcases upd k b _ hk h with q | ⟨q, e⟩
          · exact .inl q
          · subst q; subst e
            refine .inr (.inr ⟨b, hk, ?_⟩)
            have := AuxBoMove.gave (n := s.texts.length) (k := k) hp hw
            simpa only [hp] using this
        · rw [if_neg hw] at h; exact .inl h

/-- How the results, the waiting call and the references go together. -/
inductive AuxBoCount (b : BoBoot) : Prop
  | asyncOpen (s : b.sync = false) (w : b.wait = .none) (p : b.pushed = none) (f : b.refs = 0) (h : b.phase ≠ .over) (t : b.told = [])
  | asyncOver (r : BoResult) (s : b.sync = false) (w : b.wait = .none) (p : b.pushed = none) (f : b.refs = 0) (h : b.phase = .over) (t : b.told = [r])
  | down (s : b.sync = true) (w : b.wait = .none) (p : b.pushed = none) (f : b.refs = 0) (h : b.phase = .over) (t : b.told = [⟨false, none, .unset⟩])
  | waitOpen (s : b.sync = true) (w : b.wait = .waiting) (p : b.pushed = none) (f : b.refs = 2) (h : b.phase ≠ .over) (t : b.told = [])
  | waitOver (r : BoResult) (s : b.sync = true) (w : b.wait = .waiting) (p : b.pushed = some r) (f : b.refs = 1) (h : b.phase = .over) (t : b.told = [])
  | got (r : BoResult) (s : b.sync = true) (w : b.wait = .got) (p : b.pushed = none) (f : b.refs = 0) (h : b.phase = .over) (t : b.told = [r])
  | gaveOpen (s : b.sync = true) (w : b.wait = .gaveUp) (p : b.pushed = none) (f : b.refs = 2) (h : b.phase ≠ .over) (t : b.told = [⟨false, none, .static⟩])
  | gaveOver (r : BoResult) (s : b.sync = true) (w : b.wait = .gaveUp) (p : b.pushed = some r) (f : b.refs = 1) (h : b.phase = .over) (t : b.told = [⟨false, none, .static⟩])

/-- A result of a boot whose task is over. -/
def AuxBoFit (k : Nat) (b : BoBoot) (r : BoResult) : Prop :=
  (r.ok = true ∧ r.chan = some k ∧ b.chan = .ready ∧ ∃ t, b.reply = some (some (t, .bootrpy))) ∨
  (r.ok = false ∧ (b.chan = .none ∧ r.chan = none ∨ b.chan = .closed ∧ (∃ t c, b.reply = some (some (t, c)) ∧ c ≠ .bootrpy) ∨ b.chan = .opened ∧ r.chan = none ∧ b.reply = some none))

structure AuxBo (k : Nat) (b : BoBoot) : Prop where
  count : AuxBoCount b
  queued : b.phase = .queued → b.chan = .none ∧ b.reply = none ∧ (b.name = .none ∨ b.name = .copied)
  created : b.phase = .created → b.chan = .opened ∧ b.reply = none ∧ (b.name = .none ∨ b.name = .attached)
  over : b.phase = .over → b.chan = .none ∨ (b.name = .none ∨ b.name = .attached ∨ b.name = .released)
  fit : b.phase = .over → ∀ r, (r ∈ b.told ∧ b.wait ≠ .gaveUp) ∨ b.pushed = some r → AuxBoFit k b r
  syncNone : b.sync = true → ∀ r, r ∈ b.told → r.ok = false → r.chan = none

theorem aux_bo_count_notify (b : BoBoot) (r : BoResult) (c : BoBoot) (hc : AuxBoCount b) (hp : b.phase ≠ .over) (e1 : c.sync = b.sync) (e2 : c.wait = b.wait)
    (e3 : c.pushed = b.pushed) (e4 : c.refs = b.refs) (e5 : c.told = b.told) (e6 : c.phase = .over) : AuxBoCount (c.notify r) ∧
      (∀ x, (x ∈ (c.notify r).told ∧ (c.notify r).wait ≠ .gaveUp) ∨ (c.notify r).pushed = some x → x = r) := by
  cases hc with
  | asyncOpen s w p f h t =>
    have : c.notify r = { c with told := c.told ++ [r] } := by simp [BoBoot.notify, e1, s]
    rw [this]
    refine ⟨.asyncOver r (by simp [e1, s]) (by simp [e2, w]) (by simp [e3, p]) (by simp [e4, f]) e6 (by simp [e5, t]), ?_⟩
    intro x hx; simpa [e5, t, e3, p, e2, w] using hx
  | waitOpen s w p f h t =>
    have : c.notify r = { c with pushed := some r, refs := c.refs - 1 } := by simp [BoBoot.notify, e1, s]
    rw [this]
    refine ⟨.waitOver r (by simp [e1, s]) (by simp [e2, w]) rfl (by simp [e4, f]) e6 (by simp [e5, t]), ?_⟩
    intro x hx
    simp [e5, t] at hx; exact hx.symm
  | gaveOpen s w p f h t =>
    have : c.notify r = { c with pushed := some r, refs := c.refs - 1 } := by simp [BoBoot.notify, e1, s]
    rw [this]
    refine ⟨.gaveOver r (by simp [e1, s]) (by simp [e2, w]) rfl (by simp [e4, f]) e6 (by simp [e5, t]), ?_⟩
    intro x hx
    simp [e5, t, e2, w] at hx; exact hx.symm
  | asyncOver _ _ _ _ _ h _ => exact absurd h hp
  | down _ _ _ _ h _ => exact absurd h hp
  | waitOver _ _ _ _ _ h _ => exact absurd h hp
  | got _ _ _ _ _ h _ => exact absurd h hp
  | gaveOver _ _ _ _ _ h _ => exact absurd h hp

theorem aux_bo_notify_fields (c : BoBoot) (r : BoResult) :
    (c.notify r).phase = c.phase ∧ (c.notify r).chan = c.chan ∧ (c.notify r).reply = c.reply ∧ (c.notify r).name = c.name ∧
    (c.notify r).sync = c.sync ∧ (∀ x, c.sync = true → x ∈ (c.notify r).told → x ∈ c.told) := by
  unfold BoBoot.notify
  split
  · exact ⟨rfl, rfl, rfl, rfl, rfl, fun _ _ h => h⟩
  · rename_i h; exact ⟨rfl, rfl, rfl, rfl, rfl, fun x hs => absurd hs h⟩

theorem aux_bo_over (k : Nat) (b c : BoBoot) (r : BoResult) (hi : AuxBo k b) (hp : b.phase ≠ .over) (e1 : c.sync = b.sync) (e2 : c.wait = b.wait)
    (e3 : c.pushed = b.pushed) (e4 : c.refs = b.refs) (e5 : c.told = b.told) (e6 : c.phase = .over)
    (hn : c.chan = .none ∨ (c.name = .none ∨ c.name = .attached ∨ c.name = .released)) (hf : AuxBoFit k c r) : AuxBo k (c.notify r) := by
  obtain ⟨hc, hr⟩ := aux_bo_count_notify b r c hi.count hp e1 e2 e3 e4 e5 e6
  obtain ⟨f1, f2, f3, f4, f5, f6⟩ := aux_bo_notify_fields c r
  refine ⟨hc, ?_, ?_, ?_, ?_, ?_⟩
  · intro h; rw [f1, e6] at h; cases h
  · intro h; rw [f1, e6] at h; cases h
  · intro _; rw [f2, f4]; exact hn
  · intro _ x hx
    rw [hr x hx]
    unfold AuxBoFit at hf ⊢
    rw [f2, f3]; exact hf
  · intro hs x hx
    rw [f5] at hs
    have := f6 x hs hx
    rw [e5] at this
    exact hi.syncNone (e1 ▸ hs) x this

theorem aux_bo_step (n k : Nat) (op : BoOp) (b b' : BoBoot) (hi : AuxBo k b) (hm : AuxBoMove n k op b b') : AuxBo k b' := by
  cases hm with
  | created h =>
    have hq := hi.queued h
    refine ⟨?_, by simp, ?_, by simp, by simp, hi.syncNone⟩
    · cases hi.count with
      | asyncOpen s w p f _ t => exact .asyncOpen s w p f (by simp) t
      | waitOpen s w p f _ t => exact .waitOpen s w p f (by simp) t
      | gaveOpen s w p f _ t => exact .gaveOpen s w p f (by simp) t
      | asyncOver _ _ _ _ _ h' _ => rw [h] at h'; cases h'
      | down _ _ _ _ h' _ => rw [h] at h'; cases h'
      | waitOver _ _ _ _ _ h' _ => rw [h] at h'; cases h'
      | got _ _ _ _ _ h' _ => rw [h] at h'; cases h'
      | gaveOver _ _ _ _ _ h' _ => rw [h] at h'; cases h'
    · intro _
      refine ⟨rfl, hq.2.1, ?_⟩
      rcases hq.2.2 with q | q
      · simp [q]
      · simp [q]
  | notCreated h =>
    have hq := hi.queued h
    exact aux_bo_over k b _ _ hi (by rw [h]; simp) rfl rfl rfl rfl rfl rfl (.inl hq.1) (.inr ⟨rfl, .inl ⟨hq.1, rfl⟩⟩)
  | nothing h =>
    have hq := hi.created h
    refine aux_bo_over k b _ _ hi (by rw [h]; simp) rfl rfl rfl rfl rfl rfl (.inr ?_) (.inr ⟨rfl, .inr (.inr ⟨hq.1, rfl, rfl⟩)⟩)
    rcases hq.2.2 with q | q
    · exact .inl q
    · exact .inr (.inl q)
  | error h t =>
    have hq := hi.created h
    refine aux_bo_over k b _ _ hi (by rw [h]; simp) rfl rfl rfl rfl rfl rfl (.inr ?_) (.inr ⟨rfl, .inr (.inl ⟨rfl, t, .error, rfl, by simp⟩)⟩)
    rcases hq.2.2 with q | q <;> simp [q]
  | other h t =>
    have hq := hi.created h
    refine aux_bo_over k b _ _ hi (by rw [h]; simp) rfl rfl rfl rfl rfl rfl (.inr ?_) (.inr ⟨rfl, .inr (.inl ⟨rfl, t, .other, rfl, by simp⟩)⟩)
    rcases hq.2.2 with q | q <;> simp [q]
  | accepted h t =>
    have hq := hi.created h
    refine aux_bo_over k b _ _ hi (by rw [h]; simp) rfl rfl rfl rfl rfl rfl (.inr ?_) (.inl ⟨rfl, rfl, rfl, t, rfl⟩)
    rcases hq.2.2 with q | q <;> simp [q]
  | took r p w =>
    have key : b.phase = .over ∧ b.told = [] ∧ b.refs = 1 ∧ b.sync = true := by
      cases hi.count with
      | waitOver r' s w' p' f h t => exact ⟨h, t, f, s⟩
      | asyncOpen _ _ p' _ _ _ => rw [p] at p'; cases p'
      | asyncOver _ _ _ p' _ _ _ => rw [p] at p'; cases p'
      | down _ _ p' _ _ _ => rw [p] at p'; cases p'
      | waitOpen _ _ p' _ _ _ => rw [p] at p'; cases p'
      | got _ _ _ p' _ _ _ => rw [p] at p'; cases p'
      | gaveOpen _ _ p' _ _ _ => rw [p] at p'; cases p'
      | gaveOver _ _ w' _ _ _ _ => rw [w] at w'; cases w'
    obtain ⟨h1, h2, h3, h4⟩ := key
    have hf := hi.fit h1 r (.inr p)
    refine ⟨.got ⟨r.ok, if r.ok then r.chan else none, r.msg⟩ h4 rfl rfl (by simp [h3]) h1 (by simp [h2]), ?_, ?_, hi.over, ?_, ?_⟩
    · intro h; rw [h1] at h; cases h
    · intro h; rw [h1] at h; cases h
    · intro _ x hx
      simp [h2] at hx
      subst hx
      unfold AuxBoFit at hf ⊢
      simp only
      rcases hf with ⟨a1, a2, a3, a4⟩ | ⟨a1, a2⟩
      · exact .inl ⟨a1, by simp [a1, a2], a3, a4⟩
      · refine .inr ⟨a1, ?_⟩
        simp only [a1, Bool.false_eq_true, if_false]
        rcases a2 with a | a | a
        · exact .inl ⟨a.1, trivial⟩
        · exact .inr (.inl a)
        · exact .inr (.inr ⟨a.1, trivial, a.2.2⟩)
    · intro _ x hx hok
      simp [h2] at hx
      subst hx
      simp only at hok
      simp [hok]
  | gave p w =>
    have key : b.phase ≠ .over ∧ b.told = [] ∧ b.refs = 2 ∧ b.sync = true := by
      cases hi.count with
      | waitOpen s w' p' f h t => exact ⟨h, t, f, s⟩
      | asyncOpen _ w' _ _ _ _ => rw [w] at w'; cases w'
      | asyncOver _ _ w' _ _ _ _ => rw [w] at w'; cases w'
      | down _ w' _ _ _ _ => rw [w] at w'; cases w'
      | waitOver _ _ _ p' _ _ _ => rw [p] at p'; cases p'
      | got _ _ w' _ _ _ _ => rw [w] at w'; cases w'
      | gaveOpen _ w' _ _ _ _ => rw [w] at w'; cases w'
      | gaveOver _ _ w' _ _ _ _ => rw [w] at w'; cases w'
    obtain ⟨h1, h2, h3, h4⟩ := key
    refine ⟨.gaveOpen h4 rfl p h3 h1 (by simp [h2]), hi.queued, hi.created, hi.over, ?_, ?_⟩
    · intro h; exact absurd h h1
    · intro _ x hx _
      simp [h2] at hx
      rw [hx]

theorem aux_bo_new (k : Nat) (op : BoOp) (b : BoBoot) (h : AuxBoNew op b) : AuxBo k b := by
  cases h with
  | down sync name =>
    cases sync with
    | false =>
      refine ⟨.asyncOver ⟨false, none, .static⟩ rfl rfl rfl rfl rfl rfl, by simp, by simp, by simp, ?_, by simp⟩
      intro _ r hr; simp at hr; subst hr; exact .inr ⟨rfl, .inl ⟨rfl, rfl⟩⟩
    | true =>
      refine ⟨.down rfl rfl rfl rfl rfl rfl, by simp, by simp, by simp, ?_, ?_⟩
      · intro _ r hr; simp at hr; subst hr; exact .inr ⟨rfl, .inl ⟨rfl, rfl⟩⟩
      · intro _ r hr _; simp at hr; rw [hr]
  | up sync name =>
    cases sync with
    | false => refine ⟨.asyncOpen rfl rfl rfl rfl (by simp) rfl, ?_, by simp, by simp, by simp, by simp⟩; intro _; cases name <;> simp
    | true => refine ⟨.waitOpen rfl rfl rfl rfl (by simp) rfl, ?_, by simp, by simp, by simp, by simp⟩; intro _; cases name <;> simp

theorem aux_bo_run (s : BoState) (ops : List BoOp) (hi : ∀ k b, s.boots[k]? = some b → AuxBo k b) (k : Nat) (b : BoBoot)
    (h : (s.run ops).boots[k]? = some b) : AuxBo k b := by
  induction ops generalizing s with
  | nil => exact hi k b h
  | cons op r ih =>
    apply ih (s.step op) _ h
    intro j x hx
    rcases aux_bo_move s op j x hx with q | q | ⟨y, hy, q⟩
    · exact hi j x q
    · exact aux_bo_new j op x q
    · exact aux_bo_step _ j op y x (hi j y hy) q

theorem aux_bo (ops : List BoOp) (k : Nat) (b : BoBoot) (h : (BoState.init.run ops).boots[k]? = some b) : AuxBo k b :=
  aux_bo_run _ ops (by simp [BoState.init]) k b h

/-- Each boot is told at most one result, and exactly one when it is finished. -/
theorem C116_once (ops : List BoOp) (k : Nat) (b : BoBoot) (h : (BoState.init.run ops).boots[k]? = some b) :
    b.told.length ≤ 1 ∧ (BoBoot.finished b → b.told.length = 1) := by
  cases (aux_bo ops k b h).count with
  | asyncOpen s w p f q t => exact ⟨by simp [t], fun z => absurd z.1 q⟩
  | asyncOver r s w p f q t => simp [t]
  | down s w p f q t => simp [t]
  | waitOpen s w p f q t => exact ⟨by simp [t], fun z => absurd z.1 q⟩
  | waitOver r s w p f q t => exact ⟨by simp [t], fun z => absurd w z.2⟩
  | got r s w p f q t => simp [t]
  | gaveOpen s w p f q t => simp [t]
  | gaveOver r s w p f q t => simp [t]

theorem aux_bo_told_fit (ops : List BoOp) (k : Nat) (b : BoBoot) (h : (BoState.init.run ops).boots[k]? = some b) (r : BoResult) (hr : r ∈ b.told)
    (hg : b.wait ≠ .gaveUp) : AuxBoFit k b r := by
  have hi := aux_bo ops k b h
  have hp : b.phase = .over := by
    cases hi.count with
    | asyncOpen s w p f q t => rw [t] at hr; cases hr
    | asyncOver r s w p f q t => exact q
    | down s w p f q t => exact q
    | waitOpen s w p f q t => rw [t] at hr; cases hr
    | waitOver r s w p f q t => exact q
    | got r s w p f q t => exact q
    | gaveOpen s w p f q t => exact absurd w hg
    | gaveOver r s w p f q t => exact absurd w hg
  exact hi.fit hp r (.inl ⟨hr, hg⟩)

/-- A success is told only with the ready channel of the boot, when its first frame was `<bootrpy />`. Missing: that the frame was a RPY. -/
theorem C116_success_partial (ops : List BoOp) (k : Nat) (b : BoBoot) (h : (BoState.init.run ops).boots[k]? = some b) (r : BoResult) (hr : r ∈ b.told)
    (hok : r.ok = true) : r.chan = some k ∧ b.chan = .ready ∧ ∃ t, b.reply = some (some (t, .bootrpy)) := by
  by_cases hg : b.wait = .gaveUp
  · exfalso
    have hi := (aux_bo ops k b h).count
    cases hi with
    | gaveOpen s w p f q t => rw [t] at hr; simp at hr; subst hr; cases hok
    | gaveOver r s w p f q t => rw [t] at hr; simp at hr; subst hr; cases hok
    | asyncOpen s w p f q t => rw [t] at hr; cases hr
    | asyncOver r s w p f q t => rw [hg] at w; cases w
    | down s w p f q t => rw [hg] at w; cases w
    | waitOpen s w p f q t => rw [hg] at w; cases w
    | waitOver r s w p f q t => rw [hg] at w; cases w
    | got r s w p f q t => rw [hg] at w; cases w
  · rcases aux_bo_told_fit ops k b h r hr hg with q | q
    · exact q.2
    · rw [hok] at q; cases q.1

/-- Conversely, when the first frame was `<bootrpy />` and the call did not give up, a finished boot was told so. -/
theorem C116_accepted_partial (ops : List BoOp) (k : Nat) (b : BoBoot) (h : (BoState.init.run ops).boots[k]? = some b) (hf : BoBoot.finished b)
    (hg : b.wait ≠ .gaveUp) (t : Bool) (hb : b.reply = some (some (t, .bootrpy))) : ∃ r, b.told = [r] ∧ r.ok = true ∧ r.chan = some k := by
  have hl := (C116_once ops k b h).2 hf
  match ht : b.told with
  | [] => rw [ht] at hl; cases hl
  | [r] =>
    rcases aux_bo_told_fit ops k b h r (by rw [ht]; simp) hg with q | q
    · exact ⟨r, rfl, q.1, q.2.1⟩
    · exfalso
      rcases q.2 with ⟨q, _⟩ | ⟨_, t', c, q, z⟩ | ⟨_, _, q⟩
      · -- no channel: no first frame
        have hi := aux_bo ops k b h
        have inv : ∀ (ops : List BoOp) (s : BoState), (∀ k b, s.boots[k]? = some b → AuxBo k b) → (∀ (k : Nat) (b : BoBoot), s.boots[k]? = some b → b.chan = .none → b.reply = none) →
            ∀ (k : Nat) (b : BoBoot), (s.run ops).boots[k]? = some b → b.chan = .none → b.reply = none := by
          intro ops
          induction ops with
          | nil => intro s _ hs; exact hs
          | cons op rest ih =>
            intro s ha hs
            apply ih (s.step op)
            · intro j x hx
              exact aux_bo_run s [op] ha j x hx
            · intro j x hx hxc
              rcases aux_bo_move s op j x hx with q | q | ⟨y, hy, q⟩
              · exact hs j x q hxc
              · cases q <;> rfl
              · cases q with
                | created h => cases hxc
                | notCreated h =>
                  have f := aux_bo_notify_fields { y with phase := .over, name := if y.name = .copied then .lost else y.name } ⟨false, none, .text s.texts.length⟩
                  rw [f.2.1] at hxc
                  rw [f.2.2.1]; exact hs j y hy hxc
                | nothing h =>
                  exfalso
                  have f := aux_bo_notify_fields { y with phase := .over, reply := some none } ⟨false, none, .static⟩
                  rw [f.2.1] at hxc
                  have := ((ha j y hy).created h).1
                  simp only at hxc
                  rw [this] at hxc; cases hxc
                | error h t => rw [(aux_bo_notify_fields _ _).2.1] at hxc; cases hxc
                | other h t => rw [(aux_bo_notify_fields _ _).2.1] at hxc; cases hxc
                | accepted h t => rw [(aux_bo_notify_fields _ _).2.1] at hxc; cases hxc
                | took r p w => exact hs j y hy hxc
                | gave p w => exact hs j y hy hxc
        have := inv ops .init (by simp [BoState.init]) (by simp [BoState.init]) k b h q
        rw [hb] at this; cases this
      · rw [hb] at q; simp at q; exact z q.2.symm
      · rw [hb] at q; cases q
  | _ :: _ :: _ => rw [ht] at hl; simp at hl

/-- After a failure no channel is left open, unless nothing came in time. -/
theorem C116_failure_partial (ops : List BoOp) (k : Nat) (b : BoBoot) (h : (BoState.init.run ops).boots[k]? = some b) (r : BoResult) (hr : r ∈ b.told)
    (hok : r.ok = false) (hg : b.wait ≠ .gaveUp) (hn : b.reply ≠ some none) : b.chan ≠ .opened ∧ b.chan ≠ .ready := by
  rcases aux_bo_told_fit ops k b h r hr hg with q | q
  · rw [hok] at q; cases q.1
  · rcases q.2 with q | q | q
    · rw [q.1]; simp
    · rw [q.1]; simp
    · exact absurd q.2.2 hn

/-- A synchronous call that fails gives no channel. -/
theorem C116_sync_none (ops : List BoOp) (k : Nat) (b : BoBoot) (h : (BoState.init.run ops).boots[k]? = some b) (hs : b.sync = true) (r : BoResult)
    (hr : r ∈ b.told) (hok : r.ok = false) : r.chan = none :=
  (aux_bo ops k b h).syncNone hs r hr hok

/-- The queue of a finished boot has no reference left, unless the call gave up; then it always has one. -/
theorem C116_queue_partial (ops : List BoOp) (k : Nat) (b : BoBoot) (h : (BoState.init.run ops).boots[k]? = some b) (hf : BoBoot.finished b) :
    b.refs = if b.wait = .gaveUp then 1 else 0 := by
  cases (aux_bo ops k b h).count with
  | asyncOpen s w p f q t => exact absurd hf.1 q
  | asyncOver r s w p f q t => simp [w, f]
  | down s w p f q t => simp [w, f]
  | waitOpen s w p f q t => exact absurd hf.1 q
  | waitOver r s w p f q t => exact absurd w hf.2
  | got r s w p f q t => simp [w, f]
  | gaveOpen s w p f q t => exact absurd hf.1 q
  | gaveOver r s w p f q t => simp [w, f]

/-- The name of the resource is not lost if the channel was created. -/
theorem C116_name_partial (ops : List BoOp) (k : Nat) (b : BoBoot) (h : (BoState.init.run ops).boots[k]? = some b) (hc : b.chan ≠ .none) : b.name ≠ .lost := by
  have hi := aux_bo ops k b h
  cases hp : b.phase with
  | queued => exact absurd (hi.queued hp).1 hc
  | created => rcases (hi.created hp).2.2 with q | q <;> rw [q] <;> simp
  | over =>
    rcases hi.over hp with q | q | q | q
    · exact absurd q hc
    all_goals rw [q]; simp

/-- The text given by a call can be read if the connection was up, the peer did not answer with an error, and at most one channel of the
connection could not be created. -/
theorem C116_text_partial (ops : List BoOp) (k : Nat) (b : BoBoot) (h : (BoState.init.run ops).boots[k]? = some b) (r : BoResult) (hr : r ∈ b.told)
    (hx : ∀ t, b.reply ≠ some (some (t, .error))) (ho : (ops.filter fun op => match op with | .create _ ok => !ok | _ => false).length ≤ 1) (i : Nat)
    (hm : r.msg = .text i) : (BoState.init.run ops).texts[i]? = some true := by
  have gen : ∀ (ops : List BoOp) (s : BoState),
      (ops.filter fun op => match op with | .create _ ok => !ok | _ => false).length ≤ (if s.stored = none then 1 else 0) →
      (∀ i, s.stored = some i → s.texts[i]? = some true) →
      (∀ (k : Nat) (b : BoBoot) (r : BoResult) (i : Nat), s.boots[k]? = some b → r ∈ b.told ∨ b.pushed = some r → r.msg = .text i →
        (∃ t, b.reply = some (some (t, .error))) ∨ s.stored = some i) →
      (∀ (k : Nat) (b : BoBoot), s.boots[k]? = some b → AuxBo k b) →
      ∀ (k : Nat) (b : BoBoot) (r : BoResult) (i : Nat), (s.run ops).boots[k]? = some b → r ∈ b.told → r.msg = .text i →
        (∃ t, b.reply = some (some (t, .error))) ∨ (s.run ops).texts[i]? = some true := by
    intro ops
    induction ops with
    | nil =>
      intro s _ h1 h2 _ k b r i hb hr hm
      rcases h2 k b r i hb (.inl hr) hm with q | q
      · exact .inl q
      · exact .inr (h1 i q)
    | cons op rest ih =>
      intro s h0 h1 h2 h3
      have mem : ∀ (c : BoBoot) (x : BoResult) (r : BoResult), r ∈ (c.notify x).told ∨ (c.notify x).pushed = some r → (r ∈ c.told ∨ c.pushed = some r) ∨ r = x := by
        intro c x r h
        unfold BoBoot.notify at h
        split at h
        · rcases h with h | h
          · exact .inl (.inl h)
          · exact .inr (Option.some.inj h).symm
        · rcases h with h | h
          · simp at h; rcases h with h | h
            · exact .inl (.inl h)
            · exact .inr h
          · exact .inl (.inr h)
      have hinv : ∀ (k : Nat) (b : BoBoot), (s.step op).boots[k]? = some b → AuxBo k b := by
        intro k b hb
        exact aux_bo_run s [op] h3 k b hb
      -- the text stored
      have keep : (∃ k b, op = .create k false ∧ s.boots[k]? = some b ∧ b.phase = .queued) ∨
          ((s.step op).stored = s.stored ∧ ∀ i : Nat, s.texts[i]? = some true → (s.step op).texts[i]? = some true) := by
        cases op with
        | boot sync up name => right; cases up <;> exact ⟨rfl, fun _ h => h⟩
        | create k ok =>
          cases hk : s.boots[k]? with
          | none => right; simp only [BoState.step, hk]; exact ⟨trivial, fun _ h => h⟩
          | some b =>
            by_cases hp : b.phase = .queued
            · cases ok with
              | false => left; exact ⟨k, b, rfl, hk, hp⟩
              | true => right; simp only [BoState.step, hk, if_pos hp, if_true]; exact ⟨trivial, fun _ h => h⟩
            · right; simp only [BoState.step, hk, if_neg hp]; exact ⟨trivial, fun _ h => h⟩
        | first k r =>
          right
          cases hk : s.boots[k]? with
          | none => simp only [BoState.step, hk]; exact ⟨trivial, fun _ h => h⟩
          | some b =>
            by_cases hp : b.phase = .created
            · match r with
              | none => simp only [BoState.step, hk, if_pos hp]; exact ⟨trivial, fun _ h => h⟩
              | some (t, .error) =>
                simp only [BoState.step, hk, if_pos hp]
                refine ⟨trivial, ?_⟩
                intro i h
                have hlt : i < s.texts.length := by
                  rcases Nat.lt_or_ge i s.texts.length with z | z
                  · exact z
                  · rw [List.getElem?_eq_none z] at h; cases h
                rw [List.getElem?_append_left hlt]; exact h
              | some (t, .other) => simp only [BoState.step, hk, if_pos hp]; exact ⟨trivial, fun _ h => h⟩
              | some (t, .bootrpy) => simp only [BoState.step, hk, if_pos hp]; exact ⟨trivial, fun _ h => h⟩
            · simp only [BoState.step, hk, if_neg hp]; exact ⟨trivial, fun _ h => h⟩
        | take k =>
          right
          cases hk : s.boots[k]? with
          | none => simp only [BoState.step, hk]; exact ⟨trivial, fun _ h => h⟩
          | some b =>
            cases hp : b.pushed with
            | none => simp only [BoState.step, hk, hp]; exact ⟨trivial, fun _ h => h⟩
            | some x =>
              by_cases hw : b.wait = .waiting
              · simp only [BoState.step, hk, hp, if_pos hw]; exact ⟨trivial, fun _ h => h⟩
              · simp only [BoState.step, hk, hp, if_neg hw]; exact ⟨trivial, fun _ h => h⟩
        | giveUp k =>
          right
          cases hk : s.boots[k]? with
          | none => simp only [BoState.step, hk]; exact ⟨trivial, fun _ h => h⟩
          | some b =>
            cases hp : b.pushed with
            | some _ => simp only [BoState.step, hk, hp]; exact ⟨trivial, fun _ h => h⟩
            | none =>
              by_cases hw : b.wait = .waiting
              · simp only [BoState.step, hk, hp, if_pos hw]; exact ⟨trivial, fun _ h => h⟩
              · simp only [BoState.step, hk, hp, if_neg hw]; exact ⟨trivial, fun _ h => h⟩
      rcases keep with ⟨k, b, rfl, hk, hp⟩ | ⟨hs, ht⟩
      · -- a channel could not be created
        have hnone : s.stored = none := by
          cases hz : s.stored with
          | none => rfl
          | some i => rw [hz] at h0; simp at h0
        have hst : (s.step (.create k false)).stored = some s.texts.length := by simp only [BoState.step, hk, if_pos hp]; rfl
        have htx : (s.step (.create k false)).texts = s.texts ++ [true] := by simp only [BoState.step, hk, if_pos hp, hnone]; rfl
        apply ih
        · rw [hst]
          rw [hnone] at h0
          simp at h0 ⊢
          exact h0
        · intro i hi
          rw [hst] at hi
          have := Option.some.inj hi
          subst this
          rw [htx]; simp
        · intro j c x i hj hx hxm
          rw [hst]
          rcases aux_bo_move s _ j c hj with q | q | ⟨y, hy, q⟩
          · rcases h2 j c x i q hx hxm with z | z
            · exact .inl z
            · rw [hnone] at z; cases z
          · cases q
          · cases q with
            | notCreated h =>
              rcases mem _ _ x hx with z | z
              · rcases h2 _ y x i hy z hxm with w | w
                · exfalso
                  obtain ⟨t, w⟩ := w
                  rw [((h3 _ y hy).queued h).2.1] at w; cases w
                · rw [hnone] at w; cases w
              · subst z; simp only at hxm; injection hxm with hxm; rw [hxm]; exact .inr rfl
        · exact hinv
      · apply ih
        · rw [hs]
          refine Nat.le_trans ?_ h0
          exact List.Sublist.length_le (List.Sublist.filter _ (List.sublist_cons_self _ _))
        · intro i hi
          rw [hs] at hi
          exact ht i (h1 i hi)
        · intro j c x i hj hx hxm
          rw [hs]
          rcases aux_bo_move s op j c hj with q | q | ⟨y, hy, q⟩
          · exact h2 j c x i q hx hxm
          · exfalso
            cases q with
            | down sync name => cases sync <;> simp at hx <;> subst hx <;> cases hxm
            | up sync name => simp at hx
          · have rr : (b : BoReply) → y.phase = .created → (∃ t, y.reply = some (some (t, BoContent.error))) → False := by
              intro _ hp ⟨t, w⟩
              rw [((h3 j y hy).created hp).2.1] at w; cases w
            cases q with
            | created h => exact h2 j y x i hy hx hxm
            | notCreated h =>
              exfalso
              have : (s.step (.create j false)).stored = some s.texts.length := by simp only [BoState.step, hy, if_pos h]; rfl
              rw [this] at hs
              have hv := h1 _ hs.symm
              rw [List.getElem?_eq_none (Nat.le_refl _)] at hv; cases hv
            | nothing h =>
              rcases mem _ _ x hx with z | z
              · rcases h2 j y x i hy z hxm with w | w
                · exact absurd w (rr none h)
                · exact .inr w
              · subst z; cases hxm
            | error h t => left; rw [(aux_bo_notify_fields _ _).2.2.1]; exact ⟨t, rfl⟩
            | other h t =>
              rcases mem _ _ x hx with z | z
              · rcases h2 j y x i hy z hxm with w | w
                · exact absurd w (rr none h)
                · exact .inr w
              · subst z; cases hxm
            | accepted h t =>
              rcases mem _ _ x hx with z | z
              · rcases h2 j y x i hy z hxm with w | w
                · exact absurd w (rr none h)
                · exact .inr w
              · subst z; cases hxm
            | took r p w =>
              simp at hx
              rcases hx with hx | hx
              · exact h2 _ y x i hy (.inl hx) hxm
              · subst hx; exact h2 _ y r i hy (.inr p) hxm
            | gave p w =>
              simp [p] at hx
              rcases hx with hx | hx
              · exact h2 _ y x i hy (.inl hx) hxm
              · subst hx; cases hxm
        · exact hinv
  rcases gen ops .init ho (by simp [BoState.init]) (by simp [BoState.init]) (by simp [BoState.init]) k b r i h hr hm with q | q
  · obtain ⟨t, q⟩ := q; exact absurd q (hx t)
  · exact q

/-! ### the faults -/

/-- The text of an error of the peer is released before the synchronous call returns it. -/
theorem C116_error_text : (BoState.init.run [.boot true true true, .create 0 true, .first 0 (some (false, .error)), .take 0]) =
    ⟨[⟨true, .over, .closed, .released, .got, 0, none, [⟨false, none, .text 0⟩], some (some (false, .error))⟩], [false], none⟩ := by
  decide +kernel

/-- The text of a channel that could not be created is released when the next one cannot be created. -/
theorem C116_second_text :
    let s := BoState.init.run [.boot true true false, .create 0 false, .take 0, .boot false true false, .create 1 false]
    (∃ b, s.boots[0]? = some b ∧ b.told = [⟨false, none, .text 0⟩]) ∧ s.texts[0]? = some false := by
  exact ⟨⟨_, rfl, by decide +kernel⟩, by decide +kernel⟩

/-- The handler gets the channel that was closed. -/
theorem C116_closed_channel :
    let s := BoState.init.run [.boot false true true, .create 0 true, .first 0 (some (true, .other))]
    ∃ b, s.boots[0]? = some b ∧ b.told = [⟨false, some 0, .static⟩] ∧ b.chan = .closed :=
  ⟨_, rfl, by decide +kernel, by decide +kernel⟩

/-- When nothing comes in time the channel is left open. -/
theorem C116_left_open :
    let s := BoState.init.run [.boot false true true, .create 0 true, .first 0 none]
    ∃ b, s.boots[0]? = some b ∧ b.told = [⟨false, none, .static⟩] ∧ b.chan = .opened ∧ BoBoot.finished b :=
  ⟨_, rfl, by decide +kernel, by decide +kernel, ⟨by decide +kernel, by decide +kernel⟩⟩

/-- A call that gave up leaves the channel, ready, and the queue. -/
theorem C116_gave_up :
    let s := BoState.init.run [.boot true true true, .create 0 true, .giveUp 0, .first 0 (some (true, .bootrpy))]
    ∃ b, s.boots[0]? = some b ∧ b.told = [⟨false, none, .static⟩] ∧ b.chan = .ready ∧ b.refs = 1 ∧ BoBoot.finished b :=
  ⟨_, rfl, by decide +kernel, by decide +kernel, by decide +kernel, ⟨by decide +kernel, by decide +kernel⟩⟩

/-- Frames that are no RPY are accepted: even an ERR. -/
theorem C116_err_accepted :
    let s := BoState.init.run [.boot false true true, .create 0 true, .first 0 (some (false, .bootrpy))]
    ∃ b, s.boots[0]? = some b ∧ b.told = [⟨true, some 0, .static⟩] ∧ b.reply = some (some (false, .bootrpy)) :=
  ⟨_, rfl, by decide +kernel, by decide +kernel⟩

/-- The name of the resource is lost when the channel is not created. -/
theorem C116_name_lost :
    let s := BoState.init.run [.boot false true true, .create 0 false]
    ∃ b, s.boots[0]? = some b ∧ b.name = .lost ∧ BoBoot.finished b :=
  ⟨_, rfl, by decide +kernel, ⟨by decide +kernel, by decide +kernel⟩⟩

/-- A synchronous call on a connection that is down does not write its result. -/
theorem C116_unset :
    let s := BoState.init.run [.boot true false true]
    ∃ b, s.boots[0]? = some b ∧ b.told = [⟨false, none, .unset⟩] :=
  ⟨_, rfl, by decide +kernel⟩

theorem C116_statement_false : ¬ C116_statement := by
  intro h
  obtain ⟨b, hb, ht, hc, _⟩ := C116_left_open
  have := ((h _ 0 b hb).2.2 _ (by rw [ht]; exact List.mem_singleton.2 rfl)).2.1 rfl
  exact this.2.1 hc

/-- Three boots: one accepted, one refused, one not created. -/
def boSampleOps : List BoOp :=
  [.boot true true true, .boot false true true, .create 1 true, .create 0 true, .boot true true false, .first 0 (some (true, .bootrpy)), .create 2 false,
    .first 1 (some (true, .other)), .take 2, .take 0]

example : (BoState.init.run boSampleOps).boots.map (fun b => (b.told, b.refs, b.chan)) =
    [([⟨true, some 0, .static⟩], 0, .ready), ([⟨false, some 1, .static⟩], 0, .closed), ([⟨false, none, .text 0⟩], 0, .none)] ∧
    (BoState.init.run boSampleOps).texts = [true] ∧
    (boSampleOps.filter fun op => match op with | .create _ ok => !ok | _ => false).length ≤ 1 := by decide +kernel

end Verif.Props
