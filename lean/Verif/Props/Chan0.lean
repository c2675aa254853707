import Verif.Spec.Chan0
import Verif.Proof.Header
/-! C96: the messages of channel 0 are understood, or refused. -/
namespace Verif.Props
open Verif.Model Verif.Spec Verif.Proof

theorem aux_c0_digit (b : Byte) : isDigitB b = true ↔ IsDigit b := by
  simp [isDigitB, IsDigit]

theorem aux_c0_take (l : List Byte) (h : ∀ b ∈ l, IsDigit b) : l.takeWhile isDigitB = l := by
  induction l with
  | nil => rfl
  | cons a l ih =>
    have := (aux_c0_digit a).mpr (h a List.mem_cons_self)
    simp only [List.takeWhile_cons, this, if_true]
    rw [ih (fun b hb => h b (List.mem_cons_of_mem _ hb))]

theorem aux_c0_cstr (l : List Byte) (h : ∀ b ∈ l, IsDigit b) : cstr l = l := by
  unfold cstr
  induction l with
  | nil => rfl
  | cons a l ih =>
    have ha : a ≠ NUL := by
      intro e
      have := (h a List.mem_cons_self).1
      rw [e] at this
      simp [NUL] at this
    simp only [List.takeWhile_cons, ne_eq, ha, not_false_eq_true, decide_true, if_true]
    rw [ih (fun b hb => h b (List.mem_cons_of_mem _ hb))]

/-- `atoi` reads channel numbers. -/
theorem aux_c0_atoi {num : Nat} {s : List Byte} (h : IsChanNumber num s) : atoi s = num := by
  obtain ⟨⟨hd, hn, _, hv⟩, hm⟩ := h
  unfold atoi
  rw [aux_c0_cstr s hd]
  cases s with
  | nil => exact absurd rfl hn
  | cons a l =>
    have ha := hd a List.mem_cons_self
    have hs : isSpaceB a = false := by
      obtain ⟨h1, h2⟩ := ha
      have h32 : a ≠ 32 := by intro e; rw [e] at h1; simp at h1
      simp [isSpaceB, h32]; omega
    have h45 : a ≠ 45 := by intro e; have := ha.1; rw [e] at this; simp at this
    have h43 : a ≠ 43 := by intro e; have := ha.1; rw [e] at this; simp at this
    simp only [List.dropWhile_cons, hs, Bool.false_eq_true, if_false, h45, h43]
    rw [aux_c0_take _ hd]
    unfold strtolInt
    rw [digitsVal_eq, hv]
    have : min num 9223372036854775807 = num := by omega
    rw [this, i32_of_range _ (by omega) (by omega)]

theorem aux_c0_pre {parse : List Byte → Option MgmtDoc} (hx : XmlNames parse) {body : List Byte} {d : MgmtDoc} (hp : parse body = some d)
    (name : List Byte) (hm : name ∈ [lit "start", lit "close", lit "error", lit "ok"]) (hn : ¬ name <+: d.root.name) :
    (lit "<" ++ name).isPrefixOf body = false := by
  rw [Bool.eq_false_iff]
  intro h
  exact hn (hx body d name hp hm (List.isPrefixOf_iff_prefix.mp h))

/-- The kind of a message whose root is a request to start a channel. -/
theorem aux_c0_kind_start {parse : List Byte → Option MgmtDoc} (hx : XmlNames parse) {body : List Byte} {d : MgmtDoc}
    (hp : parse body = some d) (hn : d.root.name = lit "start") : mgmtKind parse body = (.start, false) := by
  have h2 := aux_c0_pre hx hp (lit "close") (by decide) (by rw [hn]; decide)
  have h3 := aux_c0_pre hx hp (lit "error") (by decide) (by rw [hn]; decide)
  have h4 := aux_c0_pre hx hp (lit "ok") (by decide) (by rw [hn]; decide)
  have e2 : lit "<" ++ lit "close" = lit "<close" := by decide
  have e3 : lit "<" ++ lit "error" = lit "<error" := by decide
  have e4 : lit "<" ++ lit "ok" = lit "<ok" := by decide
  rw [e2] at h2; rw [e3] at h3; rw [e4] at h4
  unfold mgmtKind
  cases hs : (lit "<start").isPrefixOf body with
  | true => simp
  | false => simp [h2, h3, h4, hp, hn]

/-- The kind of a message whose root is a request to close a channel. -/
theorem aux_c0_kind_close {parse : List Byte → Option MgmtDoc} (hx : XmlNames parse) {body : List Byte} {d : MgmtDoc}
    (hp : parse body = some d) (hn : d.root.name = lit "close") : mgmtKind parse body = (.close, false) := by
  have h1 := aux_c0_pre hx hp (lit "start") (by decide) (by rw [hn]; decide)
  have h3 := aux_c0_pre hx hp (lit "error") (by decide) (by rw [hn]; decide)
  have h4 := aux_c0_pre hx hp (lit "ok") (by decide) (by rw [hn]; decide)
  have e1 : lit "<" ++ lit "start" = lit "<start" := by decide
  have e3 : lit "<" ++ lit "error" = lit "<error" := by decide
  have e4 : lit "<" ++ lit "ok" = lit "<ok" := by decide
  rw [e1] at h1; rw [e3] at h3; rw [e4] at h4
  have hne : ¬ lit "close" = lit "start" := by decide
  unfold mgmtKind
  cases hs : (lit "<close").isPrefixOf body with
  | true => simp [h1]
  | false => simp [h1, h3, h4, hp, hn, hne]

/-- The full property: whatever a peer sends on channel 0, valid requests are handled for the channel they name, and all else is
refused. -/
def C96_statement : Prop := ∀ parse : List Byte → Option MgmtDoc, XmlNames parse → ∀ body, mgmtRight parse body (mgmtReceive parse body)

/-- Every valid request to start a channel is handled with the number, profile, content and serverName it holds. -/
theorem C96_start (parse : List Byte → Option MgmtDoc) (hx : XmlNames parse) (body : List Byte) (d : MgmtDoc) (hp : parse body = some d)
    (num : Nat) (uri : List Byte) (content serverName : Option (List Byte)) (enc : MgmtEncoding)
    (h : IsStart d num uri content serverName enc) :
    mgmtReceive parse body = .start num (some uri) content serverName enc := by
  obtain ⟨s, hs, hnum⟩ := h.number
  obtain ⟨p, hc, _, hu, he⟩ := h.profile
  simp only [mgmtReceive, aux_c0_kind_start hx hp h.name, mgmtStart, hp, hs, aux_c0_atoi hnum, hc, Option.bind_some, hu, h.server]
  rcases he with ⟨rfl, he | he⟩ | ⟨rfl, he⟩
  · rw [he]
  · rw [he]; simp
  · rw [he]
    have : ¬ lit "base64" = lit "none" := by decide
    simp [this]

/-- Every valid request to close a channel that says which one is handled for that channel. -/
theorem C96_close_partial (parse : List Byte → Option MgmtDoc) (hx : XmlNames parse) (body : List Byte) (d : MgmtDoc)
    (hp : parse body = some d) (num : Nat) (h : IsClose d num) (hn : (d.root.attr (lit "number")).isSome) :
    mgmtReceive parse body = .close num := by
  rcases h.number with ⟨hnone, _⟩ | ⟨s, hs, hnum⟩
  · rw [hnone] at hn; cases hn
  · simp only [mgmtReceive, aux_c0_kind_close hx hp h.name, mgmtClose, hp, hs, aux_c0_atoi hnum]

/-- A valid request to close the connection, which leaves out the number as the DTD allows, crashes the process. -/
theorem C96_close_default (parse : List Byte → Option MgmtDoc) (hx : XmlNames parse) (body : List Byte) (d : MgmtDoc)
    (hp : parse body = some d) (num : Nat) (h : IsClose d num) (hn : d.root.attr (lit "number") = none) :
    mgmtReceive parse body = .crash := by
  simp only [mgmtReceive, aux_c0_kind_close hx hp h.name, mgmtClose, hp, hn]

/-- The messages that crash the process: well-formed ones that look like a start or close request, and have no number. -/
theorem C96_crash_iff (parse : List Byte → Option MgmtDoc) (hx : XmlNames parse) (body : List Byte) :
    mgmtReceive parse body = .crash ↔ ∃ d, parse body = some d ∧ d.root.attr (lit "number") = none ∧
      (lit "<start" <+: body ∨ lit "<close" <+: body ∨ d.root.name = lit "start" ∨ d.root.name = lit "close") := by
  constructor
  · intro h
    unfold mgmtReceive at h
    have key : (mgmtKind parse body).1 = .start ∨ (mgmtKind parse body).1 = .close := by
      revert h
      generalize mgmtKind parse body = k
      obtain ⟨k, b⟩ := k
      cases k <;> cases b <;> simp
    have hnone : ∃ d, parse body = some d ∧ d.root.attr (lit "number") = none := by
      revert h
      generalize mgmtKind parse body = k at key
      obtain ⟨k, b⟩ := k
      rcases key with key | key <;> dsimp only at key <;> subst key <;> dsimp only [mgmtStart, mgmtClose] <;> intro h
      all_goals
        cases hp : parse body with
        | none => rw [hp] at h; cases h
        | some d =>
          rw [hp] at h
          dsimp only at h
          cases hn : d.root.attr (lit "number") with
          | none => exact ⟨d, rfl, hn⟩
          | some n => rw [hn] at h; cases h
    obtain ⟨d, hp, hn⟩ := hnone
    refine ⟨d, hp, hn, ?_⟩
    unfold mgmtKind at key
    by_cases h1 : (lit "<start").isPrefixOf body = true
    · exact .inl (List.isPrefixOf_iff_prefix.mp h1)
    by_cases h2 : (lit "<close").isPrefixOf body = true
    · exact .inr (.inl (List.isPrefixOf_iff_prefix.mp h2))
    rw [if_neg h1, if_neg h2] at key
    by_cases h3 : (lit "<error").isPrefixOf body = true
    · rw [if_pos h3] at key; simp at key
    by_cases h4 : (lit "<ok").isPrefixOf body = true
    · rw [if_neg h3, if_pos h4] at key; simp at key
    rw [if_neg h3, if_neg h4, hp] at key
    dsimp only at key
    by_cases h5 : d.root.name = lit "start"
    · exact .inr (.inr (.inl h5))
    by_cases h6 : d.root.name = lit "close"
    · exact .inr (.inr (.inr h6))
    rw [if_neg h5, if_neg h6] at key
    by_cases h7 : d.root.name = lit "error"
    · rw [if_pos h7] at key; simp at key
    by_cases h8 : d.root.name = lit "ok"
    · rw [if_neg h7, if_pos h8] at key; simp at key
    rw [if_neg h7, if_neg h8] at key; simp at key
  · rintro ⟨d, hp, hn, h⟩
    have hs : mgmtStart parse body = .crash := by simp only [mgmtStart, hp, hn]
    have hc : mgmtClose parse body = .crash := by simp only [mgmtClose, hp, hn]
    unfold mgmtReceive
    rcases h with h | h | h | h
    · have : mgmtKind parse body = (.start, false) := by
        unfold mgmtKind; rw [if_pos (List.isPrefixOf_iff_prefix.mpr h)]
      rw [this]; exact hs
    · have : mgmtKind parse body = (.start, false) ∨ mgmtKind parse body = (.close, false) := by
        unfold mgmtKind
        by_cases h1 : (lit "<start").isPrefixOf body = true
        · exact .inl (by rw [if_pos h1])
        · exact .inr (by rw [if_neg h1, if_pos (List.isPrefixOf_iff_prefix.mpr h)])
      rcases this with this | this <;> rw [this]
      · exact hs
      · exact hc
    · rw [aux_c0_kind_start hx hp h]; exact hs
    · rw [aux_c0_kind_close hx hp h]; exact hc

/-- What is no XML is refused, unless it begins like a positive or negative reply. -/
theorem C96_malformed_partial (parse : List Byte → Option MgmtDoc) (body : List Byte) (hp : parse body = none)
    (h1 : ¬ lit "<ok" <+: body) (h2 : ¬ lit "<error" <+: body) : isRefusal (mgmtReceive parse body) := by
  have h1' : ¬ (lit "<ok").isPrefixOf body = true := fun h => h1 (List.isPrefixOf_iff_prefix.mp h)
  have h2' : ¬ (lit "<error").isPrefixOf body = true := fun h => h2 (List.isPrefixOf_iff_prefix.mp h)
  unfold mgmtReceive mgmtKind
  rw [if_neg h1', if_neg h2', hp]
  by_cases h3 : (lit "<start").isPrefixOf body = true
  · rw [if_pos h3]; simp [isRefusal, mgmtStart, hp]
  · rw [if_neg h3]
    by_cases h4 : (lit "<close").isPrefixOf body = true
    · rw [if_pos h4]; simp [isRefusal, mgmtClose, hp]
    · rw [if_neg h4]; simp [isRefusal]

/-- What is no XML is always answered with an error unless it begins like a reply, and the connection ends unless it begins like a
request. -/
theorem C96_malformed_answered_partial (parse : List Byte → Option MgmtDoc) (body : List Byte) (hp : parse body = none)
    (h1 : ¬ lit "<ok" <+: body) (h2 : ¬ lit "<error" <+: body) :
    ((lit "<start" <+: body ∨ lit "<close" <+: body) → mgmtReceive parse body = .refused) ∧
    (¬ (lit "<start" <+: body ∨ lit "<close" <+: body) → mgmtReceive parse body = .refusedShut) := by
  simp only [← List.isPrefixOf_iff_prefix] at h1 h2 ⊢
  unfold mgmtReceive mgmtKind
  rw [if_neg h1, if_neg h2, hp]
  by_cases h3 : (lit "<start").isPrefixOf body = true
  · rw [if_pos h3]; simp [h3, mgmtStart, hp]
  · rw [if_neg h3]
    by_cases h4 : (lit "<close").isPrefixOf body = true
    · rw [if_pos h4]; simp [h4, mgmtClose, hp]
    · rw [if_neg h4]; simp [h3, h4]

example : mgmtReceive (fun _ => none) (lit "<start number") = .refused ∧ mgmtReceive (fun _ => none) (lit "hello") = .refusedShut := by
  constructor <;> rfl

/-- Documents of another kind end the connection. -/
theorem C96_other (parse : List Byte → Option MgmtDoc) (hx : XmlNames parse) (body : List Byte) (d : MgmtDoc) (hp : parse body = some d)
    (h : ∀ name ∈ [lit "start", lit "close", lit "error", lit "ok"], ¬ name <+: d.root.name) : mgmtReceive parse body = .shut := by
  have h1 := aux_c0_pre hx hp (lit "start") (by decide) (h _ (by decide))
  have h2 := aux_c0_pre hx hp (lit "close") (by decide) (h _ (by decide))
  have h3 := aux_c0_pre hx hp (lit "error") (by decide) (h _ (by decide))
  have h4 := aux_c0_pre hx hp (lit "ok") (by decide) (h _ (by decide))
  have e1 : lit "<" ++ lit "start" = lit "<start" := by decide
  have e2 : lit "<" ++ lit "close" = lit "<close" := by decide
  have e3 : lit "<" ++ lit "error" = lit "<error" := by decide
  have e4 : lit "<" ++ lit "ok" = lit "<ok" := by decide
  rw [e1] at h1; rw [e2] at h2; rw [e3] at h3; rw [e4] at h4
  have n1 : d.root.name ≠ lit "start" := fun e => h (lit "start") (by decide) (by rw [e]; exact List.prefix_rfl)
  have n2 : d.root.name ≠ lit "close" := fun e => h (lit "close") (by decide) (by rw [e]; exact List.prefix_rfl)
  have n3 : d.root.name ≠ lit "error" := fun e => h (lit "error") (by decide) (by rw [e]; exact List.prefix_rfl)
  have n4 : d.root.name ≠ lit "ok" := fun e => h (lit "ok") (by decide) (by rw [e]; exact List.prefix_rfl)
  simp [mgmtReceive, mgmtKind, h1, h2, h3, h4, hp, n1, n2, n3, n4]

/-- Messages that look like a reply are never answered, even when they are no XML. -/
theorem C96_silent (parse : List Byte → Option MgmtDoc) (rest : List Byte) :
    mgmtReceive parse (lit "<ok" ++ rest) = .ignored ∧ mgmtReceive parse (lit "<error" ++ rest) = .ignored := by
  constructor <;> rfl

/-- A number that is none is taken for 0: a request to close channel `x` closes the connection. -/
theorem C96_misread (parse : List Byte → Option MgmtDoc) (hx : XmlNames parse) (body : List Byte) (d : MgmtDoc) (hp : parse body = some d)
    (hn : d.root.name = lit "close") (c : Byte) (s : List Byte) (hs : d.root.attr (lit "number") = some (c :: s))
    (hc : ¬ IsDigit c ∧ c ≠ 43 ∧ c ≠ 45 ∧ c ≠ 32 ∧ ¬ (9 ≤ c.toNat ∧ c.toNat ≤ 13)) : mgmtReceive parse body = .close 0 := by
  obtain ⟨h1, h2, h3, h4', h5'⟩ := hc
  have h4 : isSpaceB c = false := by
    simp only [isSpaceB, Bool.or_eq_false_iff, Bool.and_eq_false_iff, decide_eq_false_iff_not]
    exact ⟨h4', by omega⟩
  have hz : atoi (c :: s) = 0 := by
    unfold atoi cstr
    by_cases h0 : c = NUL
    · simp [h0]
    · have hd : isDigitB c = false := by
        rw [Bool.eq_false_iff]; exact fun h => h1 ((aux_c0_digit c).mp h)
      simp only [List.takeWhile_cons, ne_eq, h0, not_false_eq_true, decide_true, if_true, List.dropWhile_cons, h4, Bool.false_eq_true,
        if_false, h2, h3, hd]
      rfl
  simp only [mgmtReceive, aux_c0_kind_close hx hp hn, mgmtClose, hp, hs, hz]

/-- Texts that are no numbers for the DTD are taken for numbers: white space in front is skipped, and a sign is understood, so that a
request may name a channel below zero. -/
theorem C96_lenient (parse : List Byte → Option MgmtDoc) (hx : XmlNames parse) (body : List Byte) (d : MgmtDoc) (hp : parse body = some d)
    (hn : d.root.name = lit "close") (w s : List Byte) (hw : ∀ c ∈ w, c = 32 ∨ (9 ≤ c.toNat ∧ c.toNat ≤ 13)) (num : Nat)
    (hs : IsChanNumber num s) :
    (d.root.attr (lit "number") = some (w ++ s) → mgmtReceive parse body = .close num) ∧
    (d.root.attr (lit "number") = some (w ++ 43 :: s) → mgmtReceive parse body = .close num) ∧
    (d.root.attr (lit "number") = some (w ++ 45 :: s) → mgmtReceive parse body = .close (-num)) := by
  have hsp : ∀ c ∈ w, isSpaceB c = true := by
    intro c hc
    simp only [isSpaceB, Bool.or_eq_true, decide_eq_true_eq, Bool.and_eq_true]
    exact hw c hc
  have hnz : ∀ c ∈ w, c ≠ NUL := by
    rintro c hc rfl
    rcases hw _ hc with h | h <;> simp [NUL] at h
  have key : ∀ r : List Byte, atoi (w ++ r) = atoi r := by
    intro r
    unfold atoi
    have e : cstr (w ++ r) = w ++ cstr r := by
      unfold cstr
      rw [List.takeWhile_append_of_pos]
      simpa using hnz
    rw [e, List.dropWhile_append_of_pos hsp]
  obtain ⟨⟨hd, hne, _, hv⟩, hm⟩ := id hs
  have hc : ∀ c : Byte, c ≠ NUL → cstr (c :: s) = c :: s := by
    intro c h
    have := aux_c0_cstr s hd
    unfold cstr at this ⊢
    simp [List.takeWhile_cons, h]
    simpa using this
  have hplus : atoi (43 :: s) = num := by
    unfold atoi
    rw [hc 43 (by decide)]
    have : isSpaceB 43 = false := by decide
    have h2 : ¬ (43 : Byte) = 45 := by decide
    simp only [List.dropWhile_cons, this, Bool.false_eq_true, if_false, h2, if_true]
    rw [aux_c0_take _ hd]
    unfold strtolInt
    rw [digitsVal_eq, hv]
    have : min num 9223372036854775807 = num := by omega
    rw [this, i32_of_range _ (by omega) (by omega)]
  have hminus : atoi (45 :: s) = -num := by
    unfold atoi
    rw [hc 45 (by decide)]
    have : isSpaceB 45 = false := by decide
    simp only [List.dropWhile_cons, this, Bool.false_eq_true, if_false, if_true]
    rw [aux_c0_take _ hd, digitsVal_eq, hv]
    have : max (-(num : Int)) (-9223372036854775808) = -num := by omega
    rw [this, i32_of_range _ (by omega) (by omega)]
  refine ⟨fun h => ?_, fun h => ?_, fun h => ?_⟩ <;>
    simp only [mgmtReceive, aux_c0_kind_close hx hp hn, mgmtClose, hp, h, key, aux_c0_atoi hs, hplus, hminus]

/-- A library that knows these texts. -/
def aux_c0_parse : List Byte → Option MgmtDoc := fun b =>
  if b = lit "<close code='200' />" then some ⟨⟨lit "close", [(lit "code", lit "200")]⟩, none⟩
  else if b = lit "<close number='x' code='200' />" then
    some ⟨⟨lit "close", [(lit "number", lit "x"), (lit "code", lit "200")]⟩, none⟩
  else if b = lit "<close number='12' code='200' />" then
    some ⟨⟨lit "close", [(lit "number", lit "12"), (lit "code", lit "200")]⟩, none⟩
  else if b = lit " <start number='3'><profile uri='u'/></start>" then
    some ⟨⟨lit "start", [(lit "number", lit "3")]⟩, some (⟨lit "profile", [(lit "uri", lit "u")]⟩, none)⟩
  else if b = lit "<x/>" then some ⟨⟨lit "x", []⟩, none⟩
  else none

theorem aux_c0_names : XmlNames aux_c0_parse := by
  intro body d name hp hm hpre
  unfold aux_c0_parse at hp
  have key : ∀ (text : List Byte) (root : List Byte), body = text →
      (∀ name ∈ [lit "start", lit "close", lit "error", lit "ok"], (lit "<" ++ name).isPrefixOf text = true →
        name.isPrefixOf root = true) → d.root.name = root → name <+: d.root.name := by
    intro text root hb hk hr
    rw [hr]
    exact List.isPrefixOf_iff_prefix.mp (hk name hm (List.isPrefixOf_iff_prefix.mpr (hb ▸ hpre)))
  by_cases h1 : body = lit "<close code='200' />"
  · rw [if_pos h1] at hp; cases hp; exact key _ (lit "close") h1 (by decide) rfl
  rw [if_neg h1] at hp
  by_cases h2 : body = lit "<close number='x' code='200' />"
  · rw [if_pos h2] at hp; cases hp; exact key _ (lit "close") h2 (by decide) rfl
  rw [if_neg h2] at hp
  by_cases h3 : body = lit "<close number='12' code='200' />"
  · rw [if_pos h3] at hp; cases hp; exact key _ (lit "close") h3 (by decide) rfl
  rw [if_neg h3] at hp
  by_cases h4 : body = lit " <start number='3'><profile uri='u'/></start>"
  · rw [if_pos h4] at hp; cases hp; exact key _ (lit "start") h4 (by decide) rfl
  rw [if_neg h4] at hp
  by_cases h5 : body = lit "<x/>"
  · rw [if_pos h5] at hp; cases hp; exact key _ (lit "x") h5 (by decide) rfl
  rw [if_neg h5] at hp
  cases hp

theorem aux_c0_valid : IsClose ⟨⟨lit "close", [(lit "code", lit "200")]⟩, none⟩ 0 := ⟨rfl, by decide, .inl ⟨by decide, rfl⟩⟩

theorem C96_statement_false : ¬ C96_statement := by
  intro h
  have h1 := h aux_c0_parse aux_c0_names (lit "<close code='200' />")
  have hp : aux_c0_parse (lit "<close code='200' />") = some ⟨⟨lit "close", [(lit "code", lit "200")]⟩, none⟩ := by
    unfold aux_c0_parse; rw [if_pos rfl]
  rw [C96_close_default aux_c0_parse aux_c0_names _ _ hp 0 aux_c0_valid (by decide)] at h1
  unfold mgmtRight at h1
  rw [hp] at h1
  have := h1.2.1 0 aux_c0_valid
  cases this

/-- Which requests to close a channel lead to its end: those for a channel that exists, is not being closed yet, and whose closing is not
left to the application, unless the close handler of the channel, or without one that of its profile, says no. -/
theorem C96_decide (global : Bool) (chans : Int → Option CloseChan) (num : Int) :
    closeRequest global chans num = .closed ↔ 0 ≤ num ∧ ∃ c, chans num = some c ∧ c.being = false ∧ (global = false ∨ num = 0) ∧
      c.notify = false ∧ c.handler ≠ some false ∧ (c.handler = none → c.profile ≠ some false) := by
  unfold closeRequest
  by_cases hn : num < 0
  · rw [if_pos hn]; simp; omega
  · rw [if_neg hn]
    cases hc : chans num with
    | none => simp
    | some c =>
      obtain ⟨being, waiter, notify, handler, profile⟩ := c
      by_cases h0 : num = 0
      · subst h0
        cases being <;> cases waiter <;> cases notify <;> rcases handler with _ | _ | _ <;> rcases profile with _ | _ | _ <;> simp
      · cases being <;> cases waiter <;> cases global <;> cases notify <;> rcases handler with _ | _ | _ <;>
          rcases profile with _ | _ | _ <;> simp [h0] <;> omega

/-- An error is the answer exactly when there is no such channel or the handler in charge says no. -/
theorem C96_refused (global : Bool) (chans : Int → Option CloseChan) (num : Int) :
    closeRequest global chans num = .refused ↔ (num < 0 ∨ chans num = none) ∨ ∃ c, chans num = some c ∧ c.being = false ∧
      (global = false ∨ num = 0) ∧ c.notify = false ∧ (c.handler = some false ∨ c.handler = none ∧ c.profile = some false) := by
  unfold closeRequest
  by_cases hn : num < 0
  · rw [if_pos hn]; simp [hn]
  · rw [if_neg hn]
    cases hc : chans num with
    | none => simp
    | some c =>
      obtain ⟨being, waiter, notify, handler, profile⟩ := c
      by_cases h0 : num = 0
      · subst h0
        cases being <;> cases waiter <;> cases notify <;> rcases handler with _ | _ | _ <;> rcases profile with _ | _ | _ <;> simp
      · cases being <;> cases waiter <;> cases global <;> cases notify <;> rcases handler with _ | _ | _ <;>
          rcases profile with _ | _ | _ <;> simp [h0] <;> omega

/-- When both peers ask at the same time, the peer gets its positive answer, and so does the thread that asks here. -/
theorem C96_crossed (global : Bool) (chans : Int → Option CloseChan) (num : Int) :
    closeRequest global chans num = .crossed ↔ 0 ≤ num ∧ ∃ c, chans num = some c ∧ c.being = true ∧ c.waiter = true := by
  unfold closeRequest
  by_cases hn : num < 0
  · rw [if_pos hn]; simp; omega
  · rw [if_neg hn]
    cases hc : chans num with
    | none => simp
    | some c =>
      obtain ⟨being, waiter, notify, handler, profile⟩ := c
      by_cases h0 : num = 0
      · subst h0
        cases being <;> cases waiter <;> cases notify <;> rcases handler with _ | _ | _ <;> rcases profile with _ | _ | _ <;> simp
      · cases being <;> cases waiter <;> cases global <;> cases notify <;> rcases handler with _ | _ | _ <;>
          rcases profile with _ | _ | _ <;> simp [h0] <;> omega

example : mgmtReceive aux_c0_parse (lit "<close number='12' code='200' />") = .close 12 := by decide
example : mgmtReceive aux_c0_parse (lit "<close number='x' code='200' />") = .close 0 := by decide
example : mgmtReceive aux_c0_parse (lit " <start number='3'><profile uri='u'/></start>") = .start 3 (some (lit "u")) none none .none := by
  decide
example : mgmtReceive aux_c0_parse (lit "<x/>") = .shut := by decide
example : mgmtReceive aux_c0_parse (lit "<close number=") = .refused := by decide
example : IsClose ⟨⟨lit "close", [(lit "number", lit "12"), (lit "code", lit "200")]⟩, none⟩ 12 :=
  ⟨rfl, by decide, .inr ⟨lit "12", by decide, ⟨by simp [lit, IsDigit], by decide, by decide, by decide⟩, by decide⟩⟩
example : IsStart ⟨⟨lit "start", [(lit "number", lit "3")]⟩, some (⟨lit "profile", [(lit "uri", lit "u")]⟩, none)⟩ 3 (lit "u") none none .none :=
  ⟨rfl, ⟨lit "3", by decide, ⟨by simp [lit, IsDigit], by decide, by decide, by decide⟩, by decide⟩, by decide,
    ⟨_, rfl, rfl, by decide, .inl ⟨rfl, .inl (by decide)⟩⟩⟩
example : closeRequest false (fun n => if n = 3 then some ⟨false, false, false, none, some true⟩ else none) 3 = .closed := by decide

/-- White space and a sign in front of a channel number. -/
example : (∀ c ∈ [(32 : Byte), 10], c = 32 ∨ (9 ≤ c.toNat ∧ c.toNat ≤ 13)) ∧ atoi (lit "\n -12") = -12 ∧ atoi (lit " 12") = 12 := by decide

end Verif.Props
