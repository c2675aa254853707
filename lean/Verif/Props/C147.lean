import Verif.Spec.PyAnswers
/-!
# C147 — answers of handlers written in Python
-/
namespace Verif.Props
open Verif.Model Verif.Spec

theorem aux_ya_int (p : Bool) (v : PhvVal) (n : Int) (h : phvInt p v = some n) : v = .int n := by
  cases v with
  | int m =>
    simp only [phvInt] at h
    split at h
    · cases h
    · split at h
      · cases h
      · cases h; rfl
  | _ => cases h

theorem aux_ya_fits (p : Bool) (n : Int) (h1 : -2147483648 ≤ n) (h2 : n ≤ 2147483647) (h3 : p = false ∨ n ≠ -1) :
    phvInt p (.int n) = some n := by
  simp only [phvInt]
  rw [if_neg (by omega), if_neg (by rintro ⟨a, b⟩; rcases h3 with h | h; (· rw [h] at b; cases b); exact h a)]

theorem aux_ya_none (p : Bool) (v : PhvVal) (h : ∀ n, v ≠ .int n) : phvInt p v = none := by
  cases v with
  | int m => exact absurd rfl (h m)
  | _ => rfl

theorem aux_ya_say (p : Bool) (v : PhvVal) :
    (phvSay (phvInt p v) = .yes ∨ phvSay (phvInt p v) = .no) ∧ (phvSay (phvInt p v) = .yes → PhvSaidYes (.ret v)) := by
  cases h : phvInt p v with
  | none => exact ⟨Or.inr rfl, fun h => by cases h⟩
  | some n =>
    have hv := aux_ya_int p v n h
    by_cases hn : n = 0
    · simp [phvSay, hn]
    · refine ⟨Or.inl (by simp [phvSay, hn]), fun _ => ⟨n, hn, by rw [hv]⟩⟩

/-- **C147** (partial): nothing is accepted that the handler did not accept: the
library is told yes only if the handler returned an integer other than zero (or
it is the close of a channel). -/
theorem C147_sound_partial (c : PhvCall) (hk : c.kind ≠ .close) (h : (phvCall c).ans = .yes) : PhvSaidYes c.out := by
  obtain ⟨k, o, l⟩ := c
  cases k with
  | close => exact absurd rfl hk
  | start =>
    cases o with
    | raised => cases h
    | ret v => exact (aux_ya_say false v).2 h
  | accept =>
    cases o with
    | raised => cases h
    | ret v =>
      simp only [phvCall, phvAccept] at h
      cases hp : phvInt false v with
      | none => rw [hp] at h; cases h
      | some n => rw [hp] at h; exact (aux_ya_say false v).2 (by rw [hp]; exact h)
  | cert =>
    cases o with
    | raised => cases h
    | ret v =>
      exfalso
      cases v <;> simp [phvCall, phvCert, phvStr] at h
      split at h
      · rename_i heq
        by_cases hz : '\x00' ∈ (by assumption : String).toList <;> simp_all
      · rename_i heq
        dsimp only at h
        split at h <;> cases h
  | sasl f =>
    simp only [phvCall, phvSasl] at h
    split at h
    · cases o with
      | raised => cases h
      | ret v =>
        dsimp only at h
        cases hs : phvStr v with
        | none => rw [hs] at h; cases h
        | some p =>
          rw [hs] at h
          dsimp only at h
          split at h <;> cases h
    · cases o with
      | raised => cases h
      | ret v => exact (aux_ya_say _ v).2 h

example : (phvCall ⟨.sasl .none, .ret (.int 1), true⟩).ans = .yes := by decide +kernel

theorem aux_ya_str (v : PhvVal) (s : String) (b : Bool) (h : phvStr v = some (s, b)) : '\x00' ∉ s.toList ∧ v = .str s b := by
  cases v with
  | str x y =>
    simp only [phvStr] at h
    split at h
    · cases h
    · rename_i hz
      cases h; exact ⟨hz, rfl⟩
  | _ => cases h

theorem aux_ya_strSome (s : String) (b : Bool) (h : '\x00' ∉ s.toList) : phvStr (.str s b) = some (s, b) := by
  simp only [phvStr]; rw [if_neg h]

theorem aux_ya_strNone (v : PhvVal) (h : phvStr v = none) : ∀ s, ¬ PhvNamed (.ret v) s := by
  rintro s ⟨hz, b, hb⟩
  cases hb
  rw [aux_ya_strSome s b hz] at h; cases h

/-- The integer and the flag, when they fit. -/
theorem aux_ya_flag (f : PhvVal) (hf : ∀ n, f = .int n → -2147483648 ≤ n ∧ n ≤ 2147483647) :
    (phvInt false f ≠ none ∧ phvInt false f ≠ some 0) ↔ PhvFlagged f := by
  constructor
  · rintro ⟨h1, h2⟩
    cases h : phvInt false f with
    | none => exact absurd h h1
    | some n => exact ⟨n, fun e => h2 (by rw [h, e]), aux_ya_int _ _ _ h⟩
  · rintro ⟨n, hn, rfl⟩
    rw [aux_ya_fits false n (hf n rfl).1 (hf n rfl).2 (Or.inl rfl)]
    simp [hn]

theorem aux_ya_meant (k : PhvKind) (p : Bool) (v : PhvVal)
    (hk : k = .start ∨ k = .close ∨ k = .accept ∨ ∃ f, k = .sasl f ∧ ¬ PhvFlagged f)
    (hf : ∀ n, v = .int n → -2147483648 ≤ n ∧ n ≤ 2147483647) (hp : p = false ∨ v ≠ .int (-1)) :
    PhvMeant k (.ret v) (phvSay (phvInt p v)) := by
  by_cases hi : ∃ n, v = .int n
  · obtain ⟨n, rfl⟩ := hi
    rw [aux_ya_fits p n (hf n rfl).1 (hf n rfl).2 (by
      rcases hp with h | h
      · exact Or.inl h
      · exact Or.inr (fun e => h (by rw [e])))]
    by_cases hn : n = 0
    · subst hn
      exact .no k _ hk (by rintro ⟨m, hm, h⟩; cases h; exact hm rfl)
    · simp only [phvSay, if_neg hn]
      exact .yes k _ hk ⟨n, hn, rfl⟩
  · rw [aux_ya_none p v (fun n h => hi ⟨n, h⟩)]
    exact .no k _ hk (by rintro ⟨m, _, h⟩; cases h; exact hi ⟨m, rfl⟩)

theorem aux_ya_raisedNo (k : PhvKind) (hk : k = .start ∨ k = .close ∨ k = .accept ∨ ∃ f, k = .sasl f ∧ ¬ PhvFlagged f) :
    PhvMeant k .raised .no := .no k _ hk (by rintro ⟨n, _, h⟩; cases h)

theorem aux_ya_raisedName (s : String) : ¬ PhvNamed .raised s := by rintro ⟨_, b, h⟩; cases h

/-- **C147** (partial): handlers other than those for the close of a channel
answer as meant, if integers fit, strings returned are referred to by something
else, and an authentication without the flag does not return -1. -/
theorem C147_answers_partial (c : PhvCall) (hk : c.kind ≠ .close) (hf : PhvFits c) (hs : PhvShared c.out)
    (hm : ∀ f, c.kind = .sasl f → (∃ n, f = .int n) ∨ c.out ≠ .ret (.int (-1))) :
    (phvCall c).called = true ∧ PhvMeant c.kind c.out (phvCall c).ans := by
  obtain ⟨k, o, l⟩ := c
  obtain ⟨hf1, hf2⟩ := hf
  dsimp only at *
  cases k with
  | close => exact absurd rfl hk
  | start =>
    cases o with
    | raised => exact ⟨rfl, aux_ya_raisedNo _ (Or.inl rfl)⟩
    | ret v => exact ⟨rfl, aux_ya_meant _ _ _ (Or.inl rfl) (fun n h => hf1 n (by rw [h])) (Or.inl rfl)⟩
  | accept =>
    cases o with
    | raised => exact ⟨rfl, aux_ya_raisedNo _ (Or.inr (Or.inr (Or.inl rfl)))⟩
    | ret v =>
      have h := aux_ya_meant .accept false v (Or.inr (Or.inr (Or.inl rfl))) (fun n h => hf1 n (by rw [h])) (Or.inl rfl)
      simp only [phvCall, phvAccept]
      cases hp : phvInt false v with
      | none => rw [hp] at h; exact ⟨rfl, h⟩
      | some n => rw [hp] at h; exact ⟨rfl, h⟩
  | cert =>
    cases o with
    | raised => exact ⟨rfl, .noPath _ aux_ya_raisedName⟩
    | ret v =>
      cases v with
      | none => exact ⟨rfl, .noPath _ (by rintro s ⟨_, b, h⟩; cases h)⟩
      | int n => exact ⟨rfl, .noPath _ (by rintro s ⟨_, b, h⟩; cases h)⟩
      | other => exact ⟨rfl, .noPath _ (by rintro s ⟨_, b, h⟩; cases h)⟩
      | str s b =>
        simp only [phvCall, phvCert]
        cases hp : phvStr (.str s b) with
        | none => exact ⟨rfl, .noPath _ (aux_ya_strNone _ hp)⟩
        | some q =>
          obtain ⟨s', b'⟩ := q
          have h := aux_ya_str _ _ _ hp
          have hb := hs s b rfl
          cases h.2
          subst hb
          exact ⟨rfl, .path _ s ⟨h.1, true, rfl⟩⟩
  | sasl f =>
    have hflag := aux_ya_flag f (fun n h => hf2 n (by rw [h]))
    simp only [phvCall, phvSasl]
    by_cases hfl : PhvFlagged f
    · rw [if_pos (hflag.2 hfl)]
      cases o with
      | raised => exact ⟨rfl, .noSecret _ _ hfl aux_ya_raisedName⟩
      | ret v =>
        dsimp only
        cases hp : phvStr v with
        | none => exact ⟨rfl, .noSecret _ _ hfl (aux_ya_strNone _ hp)⟩
        | some q =>
          obtain ⟨s', b'⟩ := q
          have h := aux_ya_str _ _ _ hp
          have hb := hs s' b' (by rw [h.2])
          subst hb
          exact ⟨rfl, .secret _ _ s' hfl ⟨h.1, true, by rw [h.2]⟩⟩
    · rw [if_neg (fun h => hfl (hflag.1 h))]
      have hkk : PhvKind.sasl f = .start ∨ PhvKind.sasl f = .close ∨ PhvKind.sasl f = .accept ∨
        ∃ g, PhvKind.sasl f = .sasl g ∧ ¬ PhvFlagged g := Or.inr (Or.inr (Or.inr ⟨f, rfl, hfl⟩))
      cases o with
      | raised => exact ⟨rfl, aux_ya_raisedNo _ hkk⟩
      | ret v =>
        refine ⟨rfl, aux_ya_meant _ _ _ hkk (fun n h => hf1 n (by rw [h])) ?_⟩
        rcases hm f rfl with ⟨n, rfl⟩ | h
        · left
          rw [aux_ya_fits false n (hf2 n rfl).1 (hf2 n rfl).2 (Or.inl rfl)]
          rfl
        · exact Or.inr (fun e => h (by rw [e]))

/-- A server that answers with a constant password. -/
example : PhvMeant (.sasl (.int 1)) (.ret (.str "secret" true)) (.secret (some "secret")) :=
  (C147_answers_partial ⟨.sasl (.int 1), .ret (.str "secret" true), true⟩ (by simp)
    ⟨by simp, by intro n h; cases h; omega⟩ (by intro s b h; cases h; rfl) (by intro f h; left; cases h; exact ⟨1, rfl⟩)).2

/-- **C147** (partial): a text told to the library is the one the handler returned. -/
theorem C147_text_partial (c : PhvCall) (s : String)
    (h : (phvCall c).ans = .path (some s) ∨ (phvCall c).ans = .secret (some s)) : PhvNamed c.out s := by
  obtain ⟨k, o, l⟩ := c
  have hsay : ∀ r, phvSay r ≠ .path (some s) ∧ phvSay r ≠ .secret (some s) := by
    intro r
    cases r with
    | none => exact ⟨by simp [phvSay], by simp [phvSay]⟩
    | some n => by_cases hn : n = 0 <;> simp [phvSay, hn]
  cases k with
  | close => rcases h with h | h <;> cases h
  | start =>
    cases o with
    | raised => rcases h with h | h <;> cases h
    | ret v =>
      rcases h with h | h
      · exact absurd h (hsay _).1
      · exact absurd h (hsay _).2
  | accept =>
    cases o with
    | raised => rcases h with h | h <;> cases h
    | ret v =>
      simp only [phvCall, phvAccept] at h
      cases hp : phvInt false v with
      | none => rw [hp] at h; rcases h with h | h <;> cases h
      | some n =>
        rw [hp] at h
        dsimp only at h
        rcases h with h | h
        · exact absurd h (hsay _).1
        · exact absurd h (hsay _).2
  | cert =>
    cases o with
    | raised => rcases h with h | h <;> cases h
    | ret v =>
      cases v with
      | none => rcases h with h | h <;> cases h
      | int n => rcases h with h | h <;> cases h
      | other => rcases h with h | h <;> cases h
      | str x b =>
        simp only [phvCall, phvCert] at h
        cases hp : phvStr (.str x b) with
        | none => rw [hp] at h; rcases h with h | h <;> cases h
        | some q =>
          obtain ⟨s', b'⟩ := q
          have h' := aux_ya_str _ _ _ hp
          rw [hp] at h
          dsimp only at h
          split at h
          · rcases h with h | h
            · cases h; exact ⟨h'.1, b', by rw [h'.2]⟩
            · cases h
          · rcases h with h | h <;> cases h
  | sasl f =>
    simp only [phvCall, phvSasl] at h
    split at h
    · cases o with
      | raised => rcases h with h | h <;> cases h
      | ret v =>
        dsimp only at h
        cases hp : phvStr v with
        | none => rw [hp] at h; rcases h with h | h <;> cases h
        | some q =>
          obtain ⟨s', b'⟩ := q
          have h' := aux_ya_str _ _ _ hp
          rw [hp] at h
          dsimp only at h
          split at h
          · rcases h with h | h
            · cases h
            · cases h; exact ⟨h'.1, b', by rw [h'.2]⟩
          · rcases h with h | h <;> cases h
    · cases o with
      | raised => rcases h with h | h <;> cases h
      | ret v =>
        rcases h with h | h
        · exact absurd h (hsay _).1
        · exact absurd h (hsay _).2

example : PhvNamed (.ret (.str "test.crt" true)) "test.crt" :=
  C147_text_partial ⟨.cert, .ret (.str "test.crt" true), true⟩ "test.crt" (Or.inl (by decide +kernel))

theorem aux_ya_unreadInt (v : PhvVal) :
    phvInt false v = none ↔ ∀ n : Int, -2147483648 ≤ n → n ≤ 2147483647 → v ≠ .int n := by
  constructor
  · intro h n h1 h2 e
    rw [e, aux_ya_fits false n h1 h2 (Or.inl rfl)] at h; cases h
  · intro h
    cases v with
    | int n =>
      simp only [phvInt]
      by_cases hn : n < -2147483648 ∨ 2147483647 < n
      · rw [if_pos hn]
      · exact absurd rfl (h n (by omega) (by omega))
    | _ => rfl

/-- **C147** (partial): a connection is shut down exactly if, at a listener, the handler raises or a TLS
handler returns what cannot be read; in this last case the arguments and the result are never released, and in no other. -/
theorem C147_effects_partial (c : PhvCall) (hk : c.kind ≠ .close) :
    ((phvCall c).down = true ↔ c.listener = true ∧ (c.out = .raised ∨ PhvUnread c)) ∧
    ((phvCall c).kept = true ↔ PhvUnread c) := by
  obtain ⟨k, o, l⟩ := c
  unfold PhvUnread
  dsimp only at *
  cases k with
  | close => exact absurd rfl hk
  | start => cases o <;> simp [phvCall, phvStart]
  | accept =>
    cases o with
    | raised => simp [phvCall, phvAccept]
    | ret v =>
      have hu := aux_ya_unreadInt v
      simp only [phvCall, phvAccept]
      cases hp : phvInt false v with
      | none =>
        have := hu.1 hp
        simp
        exact ⟨fun _ n a b => this n a b, fun n a b => this n a b⟩
      | some n =>
        have hn : ¬ ∀ n : Int, -2147483648 ≤ n → n ≤ 2147483647 → v ≠ .int n := fun h => by rw [hu.2 h] at hp; cases hp
        simp
        constructor
        · intro _
          obtain ⟨n, hn⟩ := Classical.not_forall.1 hn
          exact ⟨n, by
            obtain ⟨a, b⟩ := Classical.not_imp.1 hn
            obtain ⟨b, d⟩ := Classical.not_imp.1 b
            exact ⟨a, b, Classical.not_not.1 d⟩⟩
        · obtain ⟨n, hn⟩ := Classical.not_forall.1 hn
          exact ⟨n, by
            obtain ⟨a, b⟩ := Classical.not_imp.1 hn
            obtain ⟨b, d⟩ := Classical.not_imp.1 b
            exact ⟨a, b, Classical.not_not.1 d⟩⟩
  | cert =>
    cases o with
    | raised => simp [phvCall, phvCert]
    | ret v =>
      cases v with
      | none => simp [phvCall, phvCert]
      | int n => simp [phvCall, phvCert, phvStr, PhvNamed]
      | other => simp [phvCall, phvCert, phvStr, PhvNamed]
      | str s b =>
        simp only [phvCall, phvCert]
        by_cases hz : '\x00' ∈ s.toList
        · have : phvStr (.str s b) = none := by simp only [phvStr]; rw [if_pos hz]
          rw [this]
          have hn := aux_ya_strNone _ this
          simp
          exact ⟨fun _ => hn, hn⟩
        · rw [aux_ya_strSome s b hz]
          have hn : PhvNamed (.ret (.str s b)) s := ⟨hz, b, rfl⟩
          simp
          exact ⟨fun _ => ⟨s, hn⟩, ⟨s, hn⟩⟩
  | sasl f =>
    simp only [phvCall, phvSasl]
    split
    · cases o with
      | raised => simp
      | ret v =>
        dsimp only
        cases hp : phvStr v with
        | none => simp
        | some q => simp
    · cases o with
      | raised => simp
      | ret v => simp

/-- A server whose TLS handler returns None loses its connection. -/
example : (phvCall ⟨.accept, .ret .none, true⟩).down = true ∧ (phvCall ⟨.accept, .ret .none, true⟩).kept = true := by decide +kernel

/-- A violation: the handler given for the close of channels is never called, and every close is accepted. -/
theorem C147_closeIgnored (o : PhvOut) (l : Bool) : (phvCall ⟨.close, o, l⟩).called = false ∧ (phvCall ⟨.close, o, l⟩).ans = .yes :=
  ⟨rfl, rfl⟩

example : ¬ PhvMeant .close (.ret (.int 0)) (phvCall ⟨.close, .ret (.int 0), true⟩).ans := by
  intro h
  cases h with
  | yes _ _ _ h => obtain ⟨n, hn, h⟩ := h; cases h; exact hn rfl

/-- A violation: the name of a certificate, or a password, that the handler made for this call is read after it was released. -/
theorem C147_freed (s : String) (l : Bool) (n : Int) (hz : '\x00' ∉ s.toList) (h0 : n ≠ 0) (h1 : -2147483648 ≤ n) (h2 : n ≤ 2147483647) :
    (phvCall ⟨.cert, .ret (.str s false), l⟩).ans = .freed ∧ (phvCall ⟨.sasl (.int n), .ret (.str s false), l⟩).ans = .freed := by
  constructor
  · simp only [phvCall, phvCert, aux_ya_strSome s false hz]; rfl
  · simp only [phvCall, phvSasl, aux_ya_strSome s false hz, aux_ya_fits false n h1 h2 (Or.inl rfl)]
    simp [h0]

example : (phvCall ⟨.cert, .ret (.str "/etc/certs/example.com.crt" false), true⟩).ans = .freed :=
  (C147_freed _ true 1 (by decide +kernel) (by omega) (by omega) (by omega)).1

/-- Freed memory is read in these cases only. -/
theorem C147_freedOnly (c : PhvCall) (h : (phvCall c).ans = .freed) :
    (∃ s, '\x00' ∉ s.toList ∧ c.out = .ret (.str s false)) ∧ (c.kind = .cert ∨ ∃ f, c.kind = .sasl f ∧ PhvFlagged f) := by
  obtain ⟨k, o, l⟩ := c
  have hsay : ∀ r, phvSay r ≠ .freed := by
    intro r
    cases r with
    | none => simp [phvSay]
    | some n => by_cases hn : n = 0 <;> simp [phvSay, hn]
  cases k with
  | close => cases h
  | start =>
    cases o with
    | raised => cases h
    | ret v => exact absurd h (hsay _)
  | accept =>
    cases o with
    | raised => cases h
    | ret v =>
      simp only [phvCall, phvAccept] at h
      cases hp : phvInt false v with
      | none => rw [hp] at h; cases h
      | some n => rw [hp] at h; dsimp only at h; exact absurd h (hsay _)
  | cert =>
    cases o with
    | raised => cases h
    | ret v =>
      cases v with
      | none => cases h
      | int n => cases h
      | other => cases h
      | str x b =>
        simp only [phvCall, phvCert] at h
        cases hp : phvStr (.str x b) with
        | none => rw [hp] at h; cases h
        | some q =>
          obtain ⟨s', b'⟩ := q
          have h' := aux_ya_str _ _ _ hp
          rw [hp] at h
          cases b' with
          | true => cases h
          | false => exact ⟨⟨s', h'.1, by rw [h'.2]⟩, Or.inl rfl⟩
  | sasl f =>
    simp only [phvCall, phvSasl] at h
    split at h
    · rename_i hf
      cases o with
      | raised => cases h
      | ret v =>
        dsimp only at h
        cases hp : phvStr v with
        | none => rw [hp] at h; cases h
        | some q =>
          obtain ⟨s', b'⟩ := q
          have h' := aux_ya_str _ _ _ hp
          rw [hp] at h
          cases b' with
          | true => cases h
          | false =>
            refine ⟨⟨s', h'.1, by rw [h'.2]⟩, Or.inr ⟨f, rfl, ?_⟩⟩
            cases hi : phvInt false f with
            | none => exact absurd hi hf.1
            | some n => exact ⟨n, fun e => hf.2 (by rw [hi, e]), aux_ya_int _ _ _ hi⟩
    · cases o with
      | raised => cases h
      | ret v => exact absurd h (hsay _)

/-- A violation: without the flag, -1 does not accept an authentication although it is true, and accepts a channel. -/
theorem C147_minusOne (l : Bool) : (phvCall ⟨.sasl .none, .ret (.int (-1)), l⟩).ans = .no ∧
    (phvCall ⟨.start, .ret (.int (-1)), l⟩).ans = .yes := by
  cases l <;> decide +kernel

theorem C147_statement_false : ¬ C147_statement := by
  intro h
  have := (h ⟨.close, .ret (.int 1), true⟩).1
  cases this

/-- Nor is it true when closes of channels are left aside. -/
theorem C147_rest_false : ¬ ∀ c, c.kind ≠ .close → PhvMeant c.kind c.out (phvCall c).ans := by
  intro h
  have := h ⟨.cert, .ret (.str "a" false), true⟩ (by simp)
  have e : (phvCall ⟨.cert, .ret (.str "a" false), true⟩).ans = .freed := by decide +kernel
  rw [e] at this
  cases this

end Verif.Props
