import Verif.Spec.Log
/-!
# C127: the log follows its settings
-/
namespace Verif.Props
open Verif.Model Verif.Spec

theorem aux_lg_snoc {α : Type} (pick : LgOp → Option α) (d : α) (ops : List LgOp) (op : LgOp) :
    lgLast pick d (ops ++ [op]) = (pick op).getD (lgLast pick d ops) := by
  simp [lgLast]

theorem aux_lg_runSnoc (env : LgEnv) (s : Lg) (ops : List LgOp) (op : LgOp) :
    s.run env (ops ++ [op]) = (s.run env ops).step env op := by simp [Lg.run]

theorem aux_lg_ind {P : List LgOp → Prop} (h0 : P []) (h1 : ∀ ops op, P ops → P (ops ++ [op])) (ops : List LgOp) : P ops := by
  rw [← List.reverse_reverse ops]
  induction ops.reverse with
  | nil => exact h0
  | cons a l ih => rw [List.reverse_cons]; exact h1 _ _ ih

def aux_lg_enabled (env : LgEnv) (s : Lg) : Bool := if s.debugChecked then s.debug else env.debug
def aux_lg_enabled2 (env : LgEnv) (s : Lg) : Bool := if s.debug2Checked then s.debug2 else env.debug2
def aux_lg_color (env : LgEnv) (s : Lg) : Bool := if s.colorChecked then s.color else env.color
def aux_lg_filter (env : LgEnv) (s : Lg) : Option LgNames :=
  if s.filterChecked then (if s.filterOn then some s.filter else none) else env.filter.map s.filter.or

/-- Same settings. -/
structure LgSame (env : LgEnv) (s s' : Lg) : Prop where
  enabled : aux_lg_enabled env s' = aux_lg_enabled env s
  enabled2 : aux_lg_enabled2 env s' = aux_lg_enabled2 env s
  color : aux_lg_color env s' = aux_lg_color env s
  filter : aux_lg_filter env s' = aux_lg_filter env s
  handler : s'.handler = s.handler
  handler2 : s'.handler2 = s.handler2
  freed : s'.freed = s.freed
  bits : s'.filter = s.filter ∨ ∃ f, env.filter = some f ∧ s'.filter = s.filter.or f
  useMutex : s'.useMutex = s.useMutex

theorem aux_lg_common (env : LgEnv) (s : Lg) (t : Nat) (level : LgLevel) (text : Nat) : LgSame env s (s.common env t level text) := by
  obtain ⟨env1, env2, env3, env4⟩ := env
  cases env4 <;>
  constructor <;>
  simp only [Lg.common, Lg.checkDebug, Lg.checkFilter, Lg.setFilter, Lg.deliver, Lg.checkColor, aux_lg_enabled, aux_lg_enabled2,
    aux_lg_color, aux_lg_filter] <;> grind

theorem aux_lg_second (env : LgEnv) (s : Lg) : LgSame env s (s.checkDebug2 env) := by
  constructor <;> simp only [Lg.checkDebug2, aux_lg_enabled, aux_lg_enabled2, aux_lg_color, aux_lg_filter] <;> grind

/-- What holds of the settings after any calls. -/
structure LgInv (env : LgEnv) (ops : List LgOp) (s : Lg) : Prop where
  enabled : aux_lg_enabled env s = lgEnabled env ops
  enabled2 : aux_lg_enabled2 env s = lgEnabled2 env ops
  handler : s.handler = lgHandler ops
  handler2 : s.handler2 = lgHandler2 ops
  alive : s.freed = false
  isOn : (aux_lg_filter env s).isSome = (lgFilter env ops).isSome
  named : ∀ level, lgHidden env ops level = true → (aux_lg_filter env s).any (·.has level) = true
  color : (env.color = true → .color false ∉ ops) → aux_lg_color env s = lgColor env ops
  exact : ∀ names, (∀ f, env.filter = some f → f = names) → (∀ f, .filter (some f) ∈ ops → f = names) →
    aux_lg_filter env s = lgFilter env ops ∧ (lgFilter env ops = none ∨ lgFilter env ops = some names) ∧
    (s.filter = ⟨false, false, false⟩ ∨ s.filter = names)

theorem aux_lg_hidden (env : LgEnv) (ops : List LgOp) (level : LgLevel) :
    lgHidden env ops level = match lgFilter env ops with | some f => f.has level | none => false := by
  simp only [lgHidden]; cases lgFilter env ops <;> cases level <;> rfl

theorem aux_lg_has (f g : LgNames) (level : LgLevel) : (f.or g).has level = (f.has level || g.has level) := by
  cases level <;> rfl

theorem aux_lg_zero (f : LgNames) : LgNames.or ⟨false, false, false⟩ f = f := by cases f; rfl
theorem aux_lg_twice (f : LgNames) : f.or f = f := by cases f; simp [LgNames.or]

theorem aux_lg_same (env : LgEnv) (ops : List LgOp) (op : LgOp) (s s' : Lg) (h : LgInv env ops s) (hs : LgSame env s s')
    (e1 : lgEnabled env (ops ++ [op]) = lgEnabled env ops) (e2 : lgEnabled2 env (ops ++ [op]) = lgEnabled2 env ops)
    (e3 : lgHandler (ops ++ [op]) = lgHandler ops) (e4 : lgHandler2 (ops ++ [op]) = lgHandler2 ops)
    (e5 : lgFilter env (ops ++ [op]) = lgFilter env ops) (e6 : lgColor env (ops ++ [op]) = lgColor env ops) :
    LgInv env (ops ++ [op]) s' := by
  obtain ⟨h1, h2, h3, h4, h5, h6, h7, h8, h9⟩ := h
  obtain ⟨a1, a2, a3, a4, a5, a6, a7, a8, a9⟩ := hs
  refine ⟨by rw [a1, e1, h1], by rw [a2, e2, h2], by rw [a5, e3, h3], by rw [a6, e4, h4], by rw [a7, h5], by rw [a4, e5, h6], ?_, ?_, ?_⟩
  · intro level hl
    rw [a4]; refine h7 level ?_
    simpa only [lgHidden, e5] using hl
  · intro hc
    rw [a3, e6]; exact h8 fun hv hm => hc hv (by simp [hm])
  · intro names hn hf
    have := h9 names hn fun f hm => hf f (by simp [hm])
    rw [a4, e5]
    refine ⟨this.1, this.2.1, ?_⟩
    rcases a8 with a8 | ⟨f, a8, a8'⟩
    · rw [a8]; exact this.2.2
    · rw [a8', hn f a8]
      rcases this.2.2 with hz | hz <;> rw [hz]
      · rw [aux_lg_zero]; exact .inr rfl
      · rw [aux_lg_twice]; exact .inr rfl

theorem aux_lg_inv (env : LgEnv) (ops : List LgOp) (hops : .free ∉ ops) : LgInv env ops (Lg.init.run env ops) := by
  revert hops
  refine aux_lg_ind (P := fun ops => .free ∉ ops → LgInv env ops (Lg.init.run env ops)) ?_ ?_ ops
  · intro _
    refine ⟨rfl, rfl, rfl, rfl, rfl, ?_, ?_, fun _ => rfl, ?_⟩
    · show (env.filter.map _).isSome = env.filter.isSome; cases env.filter <;> rfl
    · intro level h
      show (env.filter.map _).any _ = true
      simp only [aux_lg_hidden, lgFilter, lgLast, List.foldl_nil] at h
      split at h
      · rename_i f hf; rw [hf]; simp only [Option.map_some, Option.any_some, aux_lg_has, h, Bool.or_true]
      · cases h
    · intro names h _
      refine ⟨?_, ?_, .inl rfl⟩
      · show env.filter.map _ = env.filter
        cases env.filter with
        | none => rfl
        | some f => rw [Option.map_some]; exact congrArg some (aux_lg_zero f)
      · show env.filter = none ∨ env.filter = some names
        cases hf : env.filter with
        | none => exact .inl rfl
        | some f => rw [h f hf]; exact .inr rfl
  · intro ops op ih hm
    have hi := ih (by intro h; exact hm (by simp [h]))
    rw [aux_lg_runSnoc]
    generalize Lg.init.run env ops = s at *
    have hal := hi.alive
    cases op with
    | free => exact absurd (by simp) hm
    | log t level text =>
      simp only [Lg.step, hal]
      refine aux_lg_same env ops _ s _ hi ?_ ?_ ?_ ?_ ?_ ?_ ?_
      · simp only [Bool.false_eq_true, if_false]
        split
        · exact ⟨rfl, rfl, rfl, rfl, rfl, rfl, rfl, .inl rfl, rfl⟩
        · exact aux_lg_common env s t level text
      all_goals simp [lgEnabled, lgEnabled2, lgHandler, lgHandler2, lgFilter, lgColor, aux_lg_snoc]
    | log2 t level text =>
      simp only [Lg.step, hal]
      have e : ∀ s1 : Lg, LgInv env ops s1 → ∀ s2 : Lg, LgSame env s1 s2 → LgInv env (ops ++ [.log2 t level text]) s2 := by
        intro s1 h1 s2 h2
        refine aux_lg_same env ops _ s1 s2 h1 h2 ?_ ?_ ?_ ?_ ?_ ?_
        all_goals simp [lgEnabled, lgEnabled2, lgHandler, lgHandler2, lgFilter, lgColor, aux_lg_snoc]
      simp only [Bool.false_eq_true, if_false]
      have refl : ∀ s1 : Lg, LgSame env s1 s1 := fun _ => ⟨rfl, rfl, rfl, rfl, rfl, rfl, rfl, .inl rfl, rfl⟩
      have trans : ∀ s1 s2 s3 : Lg, LgSame env s1 s2 → LgSame env s2 s3 → s2.filter = s1.filter → LgSame env s1 s3 := by
        intro s1 s2 s3 h1 h2 hf
        obtain ⟨a1, a2, a3, a4, a5, a6, a7, a8, a9⟩ := h1
        obtain ⟨b1, b2, b3, b4, b5, b6, b7, b8, b9⟩ := h2
        exact ⟨b1.trans a1, b2.trans a2, b3.trans a3, b4.trans a4, b5.trans a5, b6.trans a6, b7.trans a7, hf ▸ b8, b9.trans a9⟩
      split
      · exact e s hi s (refl s)
      · split
        · refine e s hi _ (trans s (s.checkDebug2 env) _ (aux_lg_second env s) (aux_lg_common env _ t level text) ?_)
          simp only [Lg.checkDebug2]; split <;> rfl
        · exact e s hi _ (aux_lg_second env s)
    | ret t =>
      simp only [Lg.step, hal, Bool.false_eq_true, if_false]
      refine aux_lg_same env ops _ s _ hi ?_ ?_ ?_ ?_ ?_ ?_ ?_
      · split
        · exact ⟨rfl, rfl, rfl, rfl, rfl, rfl, rfl, .inl rfl, rfl⟩
        · split
          · exact ⟨rfl, rfl, rfl, rfl, rfl, rfl, hal.symm, .inl rfl, rfl⟩
          · exact ⟨rfl, rfl, rfl, rfl, rfl, rfl, rfl, .inl rfl, rfl⟩
      all_goals simp [lgEnabled, lgEnabled2, lgHandler, lgHandler2, lgFilter, lgColor, aux_lg_snoc]
    | acquire b =>
      obtain ⟨h1, h2, h3, h4, h5, h6, h7, h8, h9⟩ := hi
      simp only [Lg.step, hal, Bool.false_eq_true, if_false]
      constructor <;> simp only [aux_lg_hidden, lgEnabled, lgEnabled2, lgHandler, lgHandler2, lgFilter, lgColor, aux_lg_snoc, Option.getD_none] at * <;>
        first | assumption | grind [aux_lg_enabled, aux_lg_enabled2, aux_lg_color, aux_lg_filter]
    | enable b =>
      obtain ⟨h1, h2, h3, h4, h5, h6, h7, h8, h9⟩ := hi
      simp only [Lg.step, hal, Bool.false_eq_true, if_false]
      constructor <;> simp only [aux_lg_hidden, lgEnabled, lgEnabled2, lgHandler, lgHandler2, lgFilter, lgColor, aux_lg_snoc, Option.getD_none, Option.getD_some] at * <;>
        first | assumption | grind [aux_lg_enabled, aux_lg_enabled2, aux_lg_color, aux_lg_filter]
    | enable2 b =>
      obtain ⟨h1, h2, h3, h4, h5, h6, h7, h8, h9⟩ := hi
      simp only [Lg.step, hal, Bool.false_eq_true, if_false]
      constructor <;> simp only [aux_lg_hidden, lgEnabled, lgEnabled2, lgHandler, lgHandler2, lgFilter, lgColor, aux_lg_snoc, Option.getD_none, Option.getD_some] at * <;>
        first | assumption | grind [aux_lg_enabled, aux_lg_enabled2, aux_lg_color, aux_lg_filter]
    | color b =>
      obtain ⟨h1, h2, h3, h4, h5, h6, h7, h8, h9⟩ := hi
      simp only [Lg.step, hal, Bool.false_eq_true, if_false]
      constructor <;> simp only [aux_lg_hidden, lgEnabled, lgEnabled2, lgHandler, lgHandler2, lgFilter, lgColor, aux_lg_snoc, Option.getD_none, Option.getD_some] at * <;>
        first | assumption | grind [aux_lg_enabled, aux_lg_enabled2, aux_lg_color, aux_lg_filter]
    | handler b =>
      obtain ⟨h1, h2, h3, h4, h5, h6, h7, h8, h9⟩ := hi
      simp only [Lg.step, hal, Bool.false_eq_true, if_false]
      constructor <;> simp only [aux_lg_hidden, lgEnabled, lgEnabled2, lgHandler, lgHandler2, lgFilter, lgColor, aux_lg_snoc, Option.getD_none, Option.getD_some] at * <;>
        first | assumption | grind [aux_lg_enabled, aux_lg_enabled2, aux_lg_color, aux_lg_filter]
    | handler2 b =>
      obtain ⟨h1, h2, h3, h4, h5, h6, h7, h8, h9⟩ := hi
      simp only [Lg.step, hal, Bool.false_eq_true, if_false]
      constructor <;> simp only [aux_lg_hidden, lgEnabled, lgEnabled2, lgHandler, lgHandler2, lgFilter, lgColor, aux_lg_snoc, Option.getD_none, Option.getD_some] at * <;>
        first | assumption | grind [aux_lg_enabled, aux_lg_enabled2, aux_lg_color, aux_lg_filter]
    | prepare b =>
      obtain ⟨h1, h2, h3, h4, h5, h6, h7, h8, h9⟩ := hi
      simp only [Lg.step, hal, Bool.false_eq_true, if_false]
      constructor <;> simp only [aux_lg_hidden, lgEnabled, lgEnabled2, lgHandler, lgHandler2, lgFilter, lgColor, aux_lg_snoc, Option.getD_none, Option.getD_some] at * <;>
        first | assumption | grind [aux_lg_enabled, aux_lg_enabled2, aux_lg_color, aux_lg_filter]
    | filter f =>
      obtain ⟨h1, h2, h3, h4, h5, h6, h7, h8, h9⟩ := hi
      simp only [Lg.step, hal, Bool.false_eq_true, if_false]
      have e1 : lgEnabled env (ops ++ [.filter f]) = lgEnabled env ops := by simp [lgEnabled, aux_lg_snoc]
      have e2 : lgEnabled2 env (ops ++ [.filter f]) = lgEnabled2 env ops := by simp [lgEnabled2, aux_lg_snoc]
      have e3 : lgHandler (ops ++ [.filter f]) = lgHandler ops := by simp [lgHandler, aux_lg_snoc]
      have e4 : lgHandler2 (ops ++ [.filter f]) = lgHandler2 ops := by simp [lgHandler2, aux_lg_snoc]
      have e5 : lgColor env (ops ++ [.filter f]) = lgColor env ops := by simp [lgColor, aux_lg_snoc]
      have e6 : lgFilter env (ops ++ [.filter f]) = f := by simp [lgFilter, aux_lg_snoc]
      have hcol : aux_lg_color env (s.setFilter f) = aux_lg_color env s := by cases f <;> rfl
      have hfil : aux_lg_filter env (s.setFilter f) = f.map s.filter.or := by cases f <;> rfl
      refine ⟨?_, ?_, ?_, ?_, ?_, ?_, ?_, ?_, ?_⟩
      · rw [e1, ← h1]; cases f <;> rfl
      · rw [e2, ← h2]; cases f <;> rfl
      · rw [e3, ← h3]; cases f <;> rfl
      · rw [e4, ← h4]; cases f <;> rfl
      · cases f <;> exact h5
      · rw [hfil, e6]; cases f <;> rfl
      · intro level hl
        simp only [aux_lg_hidden, e6] at hl
        rw [hfil]
        cases f with
        | none => cases hl
        | some f => simp only [Option.map_some, Option.any_some, aux_lg_has]; simp_all
      · intro hc
        rw [hcol, e5]; exact h8 fun hv hm => hc hv (by simp [hm])
      · intro names hn hf
        have h := h9 names hn fun f hm => hf f (by simp [hm])
        rw [hfil, e6]
        cases f with
        | none => exact ⟨rfl, .inl rfl, h.2.2⟩
        | some f =>
          have hfn := hf f (by simp)
          subst hfn
          rcases h.2.2 with hz | hz <;> simp only [Lg.setFilter, hz, Option.map_some, aux_lg_zero, aux_lg_twice] <;> simp

theorem aux_lg_out (env : LgEnv) (s : Lg) (t : Nat) (level : LgLevel) (text : Nat) (ho : s.owner = none) :
    (s.common env t level text).out.map lgLine = s.out.map lgLine ++
      List.map (fun d => (t, level, text, d)) (if aux_lg_enabled env s && !((aux_lg_filter env s).any (·.has level)) then
        match s.handler, s.handler2 with
        | none, none => [.console (aux_lg_color env s)]
        | some h, none => [.first h]
        | none, some k => [.second k]
        | some h, some k => [.first h, .second k]
      else []) := by
  obtain ⟨env1, env2, env3, env4⟩ := env
  cases env4 <;> cases hh : s.handler <;> cases hk : s.handler2 <;>
    simp only [Lg.common, Lg.checkDebug, Lg.checkFilter, Lg.setFilter, Lg.deliver, Lg.checkColor, aux_lg_enabled, aux_lg_color, aux_lg_filter] <;>
    grind [lgLine]

/-- **C127 (partial).** When no other message is being written, a message goes where the settings say, once: the last call of every
setting decides. For the filter: if every filter that was set names the same levels. For colors: unless they were turned off
while the environment asks for them. -/
theorem C127_settings_partial (env : LgEnv) (ops : List LgOp) (t : Nat) (level : LgLevel) (text : Nat) (names : LgNames)
    (h1 : .free ∉ ops) (h2 : (Lg.init.run env ops).owner = none) (h3 : t ∉ (Lg.init.run env ops).stuck)
    (h4 : ∀ f, env.filter = some f → f = names) (h5 : ∀ f, .filter (some f) ∈ ops → f = names)
    (h6 : env.color = true → .color false ∉ ops) :
    (Lg.init.run env (ops ++ [.log t level text])).out.map lgLine =
      (Lg.init.run env ops).out.map lgLine ++ (lgDests env ops level).map (fun d => (t, level, text, d)) := by
  have hi := aux_lg_inv env ops h1
  rw [aux_lg_runSnoc]
  generalize Lg.init.run env ops = s at *
  have hal := hi.alive
  simp only [Lg.step, hal, Bool.false_eq_true, if_false, if_neg h3]
  rw [aux_lg_out env s t level text h2, hi.enabled, hi.handler, hi.handler2, hi.color h6, (hi.exact names h4 h5).1]
  have hh : lgHidden env ops level = (lgFilter env ops).any (·.has level) := by
    simp only [aux_lg_hidden]; cases lgFilter env ops <;> rfl
  rw [lgDests, hh]
  congr 2

/-- **C127 (partial).** A level the filter in force names is never written, and with the log turned off no message is; whatever was
set before. -/
theorem C127_hidden_partial (env : LgEnv) (ops : List LgOp) (t : Nat) (level : LgLevel) (text : Nat) (h1 : .free ∉ ops)
    (h2 : lgHidden env ops level = true ∨ lgEnabled env ops = false) (op : LgOp) (hop : op = .log t level text ∨ op = .log2 t level text) :
    (Lg.init.run env (ops ++ [op])).out = (Lg.init.run env ops).out ∧
    (Lg.init.run env (ops ++ [op])).frames = (Lg.init.run env ops).frames := by
  have hi := aux_lg_inv env ops h1
  rw [aux_lg_runSnoc]
  generalize Lg.init.run env ops = s at *
  have key : ∀ s : Lg, aux_lg_enabled env s = false ∨ (aux_lg_filter env s).any (·.has level) = true →
      (s.common env t level text).out = s.out ∧ (s.common env t level text).frames = s.frames := by
    intro s h
    obtain ⟨env1, env2, env3, env4⟩ := env
    cases env4 <;> simp only [Lg.common, Lg.checkDebug, Lg.checkFilter, Lg.setFilter, aux_lg_enabled, aux_lg_filter] at * <;> grind
  have hs : aux_lg_enabled env s = false ∨ (aux_lg_filter env s).any (·.has level) = true := by
    rcases h2 with h2 | h2
    · exact .inr (hi.named level h2)
    · rw [hi.enabled]; exact .inl h2
  have hal := hi.alive
  rcases hop with hop | hop <;> subst hop <;> simp only [Lg.step, hal, Bool.false_eq_true, if_false]
  · split
    · exact ⟨rfl, rfl⟩
    · exact key s hs
  · split
    · exact ⟨rfl, rfl⟩
    · have e : (s.checkDebug2 env).out = s.out ∧ (s.checkDebug2 env).frames = s.frames := by
        simp only [Lg.checkDebug2]; split <;> exact ⟨rfl, rfl⟩
      split
      · have := key (s.checkDebug2 env) (by rw [(aux_lg_second env s).enabled, (aux_lg_second env s).filter]; exact hs)
        exact ⟨this.1.trans e.1, this.2.trans e.2⟩
      · exact e

example : lgDests ⟨true, false, false, none⟩ [.filter (some ⟨true, false, false⟩), .handler (some 5), .enable true] .warning = [.first 5] ∧
    (Lg.init.run ⟨true, false, false, none⟩ [.filter (some ⟨true, false, false⟩), .handler (some 5), .enable true, .log 0 .debug 1,
      .log 0 .warning 2, .ret 0]).out = [⟨0, .warning, 2, .first 5, true⟩] := by decide +kernel

/-- Messages that are being written by threads that took the mutex. -/
structure LgLock (s : Lg) : Prop where
  one : s.frames.countP (fun f => f.2) = (if s.owner.isSome then 1 else 0)

theorem aux_lg_count (t : Nat) (b : Bool) (l : List (Nat × Bool)) :
    ((t, b) :: l).countP (fun f => f.2) = l.countP (fun f => f.2) + if b then 1 else 0 := by
  rw [List.countP_cons]

theorem aux_lg_lockDeliver (env : LgEnv) (s : Lg) (t : Nat) (level : LgLevel) (text : Nat) :
    (s.deliver env t level text).frames = s.frames ∧ (s.deliver env t level text).owner = s.owner ∧
    (s.deliver env t level text).useMutex = s.useMutex := by
  simp only [Lg.deliver, Lg.checkColor]
  split
  · split <;> exact ⟨rfl, rfl, rfl⟩
  all_goals exact ⟨rfl, rfl, rfl⟩

/-- Nothing changes, or one message more is written. -/
theorem aux_lg_lockCommon (env : LgEnv) (s : Lg) (t : Nat) (level : LgLevel) (text : Nat) :
    let s' := s.common env t level text
    s'.useMutex = s.useMutex ∧ ((s'.frames = s.frames ∧ s'.owner = s.owner) ∨
      (s.useMutex = true ∧ s.owner = none ∧ s'.owner = some t ∧ s'.frames = (t, true) :: s.frames) ∨
      (s.useMutex = false ∧ s'.owner = s.owner ∧ s'.frames = (t, false) :: s.frames)) := by
  have hd : (s.checkDebug env).frames = s.frames ∧ (s.checkDebug env).owner = s.owner ∧ (s.checkDebug env).useMutex = s.useMutex := by
    simp only [Lg.checkDebug]; split <;> exact ⟨rfl, rfl, rfl⟩
  have hf : ((s.checkDebug env).checkFilter env).frames = s.frames ∧ ((s.checkDebug env).checkFilter env).owner = s.owner ∧
      ((s.checkDebug env).checkFilter env).useMutex = s.useMutex := by
    simp only [Lg.checkFilter, Lg.setFilter]; split
    · exact hd
    · split <;> exact hd
  simp only [Lg.common]
  split
  · generalize (s.checkDebug env).checkFilter env = r at *
    split
    · exact ⟨hf.2.2, .inl ⟨hf.1, hf.2.1⟩⟩
    · split
      · rename_i hm
        split
        · split
          · exact ⟨hf.2.2, .inl ⟨hf.1, hf.2.1⟩⟩
          · exact ⟨hf.2.2, .inl ⟨hf.1, hf.2.1⟩⟩
        · rename_i ho
          have := aux_lg_lockDeliver env { r with owner := some t, frames := (t, true) :: r.frames } t level text
          exact ⟨this.2.2.trans hf.2.2, .inr (.inl ⟨hf.2.2 ▸ hm, hf.2.1 ▸ ho, this.2.1, by rw [this.1]; simp only [hf.1]⟩)⟩
      · rename_i hm
        have := aux_lg_lockDeliver env { r with frames := (t, false) :: r.frames } t level text
        exact ⟨this.2.2.trans hf.2.2, .inr (.inr ⟨by rw [← hf.2.2]; simpa using hm, by rw [this.2.1]; exact hf.2.1, by rw [this.1]; simp only [hf.1]⟩)⟩
  · exact ⟨hd.2.2, .inl ⟨hd.1, hd.2.1⟩⟩

/-- The mutex is used, and every message being written has it. -/
structure LgAll (s : Lg) : Prop where
  lock : s.useMutex = true
  all : ∀ f ∈ s.frames, f.2 = true
  one : s.frames.length = (if s.owner.isSome then 1 else 0)

theorem aux_lg_all (env : LgEnv) (s : Lg) (op : LgOp) (h : LgAll s) : LgAll (s.step env op) := by
  have key : ∀ s : Lg, LgAll s → ∀ t level text, LgAll (s.common env t level text) := by
    intro s h t level text
    obtain ⟨h1, h2, h3⟩ := h
    have := aux_lg_lockCommon env s t level text
    simp only at this
    generalize s.common env t level text = r at *
    obtain ⟨a, b | b | b⟩ := this
    · exact ⟨a.trans h1, by rw [b.1]; exact h2, by rw [b.1, b.2]; exact h3⟩
    · refine ⟨a.trans h1, ?_, ?_⟩
      · rw [b.2.2.2]; intro f hf
        rcases List.mem_cons.mp hf with hf | hf
        · rw [hf]
        · exact h2 f hf
      · rw [b.2.2.2, b.2.2.1, List.length_cons, h3, b.2.1]; rfl
    · rw [h1] at b; exact absurd b.1 (by decide)
  simp only [Lg.step]
  split
  · exact h
  · cases op with
    | log t level text =>
      simp only; split
      · exact h
      · exact key s h t level text
    | log2 t level text =>
      have hd : LgAll (s.checkDebug2 env) := by
        simp only [Lg.checkDebug2]; split
        · exact h
        · exact ⟨h.lock, h.all, h.one⟩
      simp only; split
      · exact h
      · split
        · exact key _ hd t level text
        · exact hd
    | ret t =>
      simp only; split
      · exact h
      · split
        · rename_i f hf
          have hm := List.mem_of_find?_eq_some hf
          have h2 := h.all f hm
          refine ⟨h.lock, fun g hg => h.all g (List.mem_of_mem_erase hg), ?_⟩
          simp only [h2, if_true, List.length_erase_of_mem hm, h.one]
          split <;> rfl
        · exact h
    | filter f => cases f <;> exact ⟨h.lock, h.all, h.one⟩
    | acquire b => exact ⟨rfl, h.all, h.one⟩
    | free =>
      have hd : LgAll (s.checkDebug env) := by
        simp only [Lg.checkDebug]; split
        · exact h
        · exact ⟨h.lock, h.all, h.one⟩
      have hf : LgAll ((s.checkDebug env).checkFilter env) := by
        simp only [Lg.checkFilter, Lg.setFilter]; split
        · exact hd
        · split <;> exact ⟨hd.lock, hd.all, hd.one⟩
      exact ⟨hf.lock, hf.all, hf.one⟩
    | _ => exact ⟨h.lock, h.all, h.one⟩

/-- Nobody writes, so nobody has the mutex. -/
theorem aux_lg_free (env : LgEnv) (ops : List LgOp) : ((Lg.init.run env ops).frames = [] → (Lg.init.run env ops).owner = none) := by
  have key : ∀ ops, LgLock (Lg.init.run env ops) := by
    intro ops
    refine aux_lg_ind (P := fun ops => LgLock (Lg.init.run env ops)) ⟨rfl⟩ ?_ ops
    intro ops op h
    rw [aux_lg_runSnoc]
    generalize Lg.init.run env ops = s at *
    have key : ∀ s : Lg, LgLock s → ∀ t level text, LgLock (s.common env t level text) := by
      intro s h t level text
      have := aux_lg_lockCommon env s t level text
      simp only at this
      generalize s.common env t level text = r at *
      obtain ⟨h1⟩ := h
      obtain ⟨a, b | b | b⟩ := this
      · exact ⟨by rw [b.1, b.2]; exact h1⟩
      · exact ⟨by rw [b.2.2.2, b.2.2.1, aux_lg_count, h1, b.2.1]; rfl⟩
      · exact ⟨by rw [b.2.2, b.2.1, aux_lg_count, h1]; rfl⟩
    simp only [Lg.step]
    split
    · exact h
    · cases op with
      | log t level text =>
        simp only; split
        · exact h
        · exact key s h t level text
      | log2 t level text =>
        have hd : LgLock (s.checkDebug2 env) := by
          simp only [Lg.checkDebug2]; split
          · exact h
          · exact ⟨h.one⟩
        simp only; split
        · exact h
        · split
          · exact key _ hd t level text
          · exact hd
      | ret t =>
        simp only; split
        · exact h
        · split
          · rename_i f hf
            have hm := List.mem_of_find?_eq_some hf
            refine ⟨?_⟩
            have h1 := h.one
            have h2 := (List.perm_cons_erase hm).countP_eq (fun f : Nat × Bool => f.2)
            rw [List.countP_cons] at h2
            simp only
            cases hf2 : f.2
            · simp only [hf2, Bool.false_eq_true, if_false, Nat.add_zero] at h2 ⊢
              rw [← h2]; exact h1
            · simp only [hf2, if_true] at h2 ⊢
              simp only [Option.isSome_none, Bool.false_eq_true, if_false]
              split at h1 <;> omega
          · exact h
      | filter f => cases f <;> exact ⟨h.one⟩
      | free =>
        have hd : LgLock (s.checkDebug env) := by
          simp only [Lg.checkDebug]; split
          · exact h
          · exact ⟨h.one⟩
        have hf : LgLock ((s.checkDebug env).checkFilter env) := by
          simp only [Lg.checkFilter, Lg.setFilter]; split
          · exact hd
          · split <;> exact ⟨hd.one⟩
        exact ⟨hf.one⟩
      | _ => exact ⟨h.one⟩
  intro h
  have h1 := (key ops).one
  rw [h] at h1
  cases ho : (Lg.init.run env ops).owner with
  | none => rfl
  | some t => rw [ho] at h1; cases h1

/-- **C127 (partial).** Once the mutex was asked for while no message was being written, at most one message is being written at any
moment, whatever the threads do: messages are never mixed. -/
theorem C127_separate_partial (env : LgEnv) (before after : List LgOp) (b : Bool) (h1 : .free ∉ before)
    (h2 : (Lg.init.run env before).frames = []) :
    (Lg.init.run env (before ++ .acquire b :: after)).frames.length ≤ 1 := by
  have e : Lg.init.run env (before ++ .acquire b :: after) = ((Lg.init.run env before).step env (.acquire b)).run env after := by
    simp [Lg.run]
  have ho := aux_lg_free env before h2
  have hal := (aux_lg_inv env before h1).alive
  rw [e]
  generalize Lg.init.run env before = s at *
  have h0 : LgAll (s.step env (.acquire b)) := by
    simp only [Lg.step, hal, Bool.false_eq_true, if_false]
    exact ⟨rfl, by rw [h2]; simp, by simp only [h2, ho]; rfl⟩
  have key : ∀ (ops : List LgOp) (s : Lg), LgAll s → LgAll (s.run env ops) := by
    intro ops
    induction ops with
    | nil => intro s h; exact h
    | cons op ops ih => intro s h; exact ih _ (aux_lg_all env s op h)
  rw [(key after _ h0).one]
  split <;> omega

example : (Lg.init.run ⟨true, false, false, none⟩ ([.handler (some 5)] ++ .acquire true :: [.log 0 .debug 1, .log 1 .debug 2])).frames =
    [(0, true)] := by decide +kernel

/-! ## What the code gets wrong -/

/-- **C127 violated.** A level that an earlier filter named stays hidden: first only warnings are hidden, then only debug messages,
and warnings are still not written. -/
theorem C127_filter_kept :
    (Lg.init.run ⟨true, false, false, none⟩ [.filter (some ⟨false, true, false⟩), .filter none, .filter (some ⟨true, false, false⟩),
      .log 0 .warning 1]).out = [] ∧
    lgDests ⟨true, false, false, none⟩ [.filter (some ⟨false, true, false⟩), .filter none, .filter (some ⟨true, false, false⟩)] .warning =
      [.console false] := by decide +kernel

/-- **C127 violated.** Colors that were turned off are used if the environment asks for them. -/
theorem C127_color_kept :
    (Lg.init.run ⟨true, false, true, none⟩ [.color false, .log 0 .warning 1]).out = [⟨0, .warning, 1, .console true, true⟩] := by
  decide +kernel

/-- **C127 violated.** Asking not to use the mutex turns its use on; a handler that writes a message then waits for itself for ever. -/
theorem C127_mutex_on (ops : List LgOp) :
    0 ∈ (Lg.init.run ⟨true, false, false, none⟩ ([.handler (some 5), .acquire false, .log 0 .debug 1, .log 0 .debug 2] ++ ops)).stuck := by
  have key : ∀ (ops : List LgOp) (s : Lg), 0 ∈ s.stuck → 0 ∈ (s.run ⟨true, false, false, none⟩ ops).stuck := by
    intro ops
    induction ops with
    | nil => intro s h; exact h
    | cons op ops ih =>
      intro s h
      refine ih _ ?_
      have kc : ∀ (s : Lg) t level text, 0 ∈ s.stuck → 0 ∈ (s.common ⟨true, false, false, none⟩ t level text).stuck := by
        intro s t level text h
        simp only [Lg.common, Lg.checkDebug, Lg.checkFilter, Lg.setFilter, Lg.deliver, Lg.checkColor]
        grind
      simp only [Lg.step]
      split
      · exact h
      · cases op with
        | log t level text => simp only; split <;> first | exact h | exact kc s t level text h
        | log2 t level text =>
          have hd : 0 ∈ (s.checkDebug2 ⟨true, false, false, none⟩).stuck := by simp only [Lg.checkDebug2]; split <;> exact h
          simp only
          split
          · exact h
          · split
            · exact kc _ t level text hd
            · exact hd
        | ret t => simp only; split <;> first | exact h | (split <;> exact h)
        | filter f => cases f <;> exact h
        | free =>
          simp only [Lg.checkDebug, Lg.checkFilter, Lg.setFilter]
          grind
        | _ => exact h
  have e : Lg.init.run ⟨true, false, false, none⟩ ([.handler (some 5), .acquire false, .log 0 .debug 1, .log 0 .debug 2] ++ ops) =
    (Lg.init.run ⟨true, false, false, none⟩ [.handler (some 5), .acquire false, .log 0 .debug 1, .log 0 .debug 2]).run ⟨true, false, false, none⟩ ops := by
    simp [Lg.run]
  rw [e]
  exact key ops _ (by decide +kernel)

/-- **C127 violated.** With two handlers and no prepared text the second gets a list of arguments the first has used. -/
theorem C127_arguments :
    (Lg.init.run ⟨true, false, false, none⟩ [.handler (some 5), .handler2 (some 6), .log 0 .debug 1]).out =
      [⟨0, .debug, 1, .first 5, true⟩, ⟨0, .debug, 1, .second 6, false⟩] := by decide +kernel

/-- **C127 violated.** The last message of a context that is released takes a mutex that was destroyed. -/
theorem C127_destroyed : (Lg.init.run ⟨true, false, false, none⟩ [.acquire true, .free]).bad = true := by decide +kernel

/-- The full claim: every message goes where the last call of every setting says. -/
def C127_statement : Prop := ∀ (env : LgEnv) (ops : List LgOp) (t : Nat) (level : LgLevel) (text : Nat), .free ∉ ops →
  (Lg.init.run env ops).owner = none → t ∉ (Lg.init.run env ops).stuck →
  (Lg.init.run env (ops ++ [.log t level text])).out.map lgLine =
    (Lg.init.run env ops).out.map lgLine ++ (lgDests env ops level).map (fun d => (t, level, text, d))

theorem C127_statement_false : ¬ C127_statement := by
  intro h
  have := h ⟨true, false, true, none⟩ [.color false] 0 .warning 1 (by decide) (by decide +kernel) (by decide +kernel)
  revert this
  decide +kernel

end Verif.Props
