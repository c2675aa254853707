import Verif.Model.GenValues
import Verif.Spec.GenValues
/-!
# C138: the structs and arrays of an interface arrive as they were sent
-/
namespace Verif.Props
open Verif.Model Verif.Spec

/-- The chain read from the struct in which it comes later. -/
theorem aux_gv_skip (n : List Byte) (y : GvWire) : ∀ (t : GvType) (x : GvWire), n ∉ gvNames t → GvGood (.struct t) → gvFrom t (.member n y x) = gvFrom t x ∧ gvBorrowed t (.member n y x) = gvBorrowed t x := by
  intro t
  induction t with
  | nil => intro x _ _; simp [gvFrom, gvBorrowed]
  | member m t rest _ ih =>
    rintro x hn hg
    simp [gvNames] at hn
    cases hg with
    | struct _ _ hg =>
      have := ih x hn.2 hg
      simp [gvFrom, gvBorrowed, gvFind, hn.1, this.1, this.2]
  | _ => rintro x _ hg; cases hg

theorem aux_gv_typeOk (t : GvType) (w : GvWire) (h : GvSent t w) : gvTypeOk t w = true := by
  cases t with
  | struct => rcases h with rfl | ⟨_, rfl, _⟩ <;> simp [gvTypeOk]
  | array => rcases h with rfl | ⟨_, rfl, _⟩ <;> simp [gvTypeOk]
  | bool => simp [gvTypeOk]
  | nil => simp [gvTypeOk]
  | member => simp [gvTypeOk]
  | _ => obtain ⟨_, rfl⟩ := h; simp [gvTypeOk]

theorem aux_gv_check : ∀ (t : GvType) (w : GvWire), GvGood (.struct t) → GvSent t w → gvCheck t w = true := by
  intro t
  induction t with
  | nil => intro w _ h; simp [GvSent] at h; subst h; simp [gvCheck]
  | member m t rest _ ih =>
    rintro w hg ⟨y, r, rfl, hy, hr⟩
    cases hg with
    | struct _ _ hg => simp [gvCheck, aux_gv_typeOk t y hy, ih r hg hr]
  | _ => rintro w hg; cases hg

theorem aux_gv_good (t : GvType) : (GvGood t → ∀ v, GvFits t v → ∃ w, gvTo t v = some w ∧ GvSent t w ∧ gvFrom t w = gvArrives v) ∧
    (GvGood (.struct t) → ∀ v, GvFits t v → ∃ w, gvTo t v = some w ∧ GvSent t w ∧ gvFrom t w = gvArrives v) := by
  induction t with
  | int => exact ⟨(by rintro _ v ⟨n, rfl⟩; simp [gvTo, GvSent, gvFrom, gvArrives, gvAsInt]), (by intro hg; cases hg)⟩
  | bool => exact ⟨(by rintro _ v ⟨n, rfl⟩; simp [gvTo, GvSent, gvFrom, gvArrives, gvAsInt]), (by intro hg; cases hg)⟩
  | double => exact ⟨(by rintro _ v ⟨n, rfl⟩; simp [gvTo, GvSent, gvFrom, gvArrives]), (by intro hg; cases hg)⟩
  | string =>
    refine ⟨?_, (by intro hg; cases hg)⟩
    rintro _ v ⟨s, rfl⟩
    cases s <;> simp [gvTo, GvSent, gvFrom, gvArrives]
  | base64 => exact ⟨(by intro h; cases h), (by intro hg; cases hg)⟩
  | array t ih =>
    refine ⟨?_, (by intro hg; cases hg)⟩
    intro hg v hv
    cases hg with
    | array hg hd ha =>
      have he : gvElement t = true := by
        cases t <;> simp [gvElement]
        · cases hg
        · exact ha _ rfl
      have hi : gvItem t (gvFrom t) = gvFrom t := by
        cases t <;> simp [gvItem]
        exact absurd rfl hd
      rcases hv with rfl | ⟨l, rfl, hl⟩
      · exact ⟨.none, by simp [gvTo, he], Or.inl rfl, by simp [gvFrom, gvArrives]⟩
      · have : ∀ l, GvEach (GvFits t) l → ∃ w, gvItemsTo (gvTo t) l = some w ∧ GvEachItem (GvSent t) w ∧ gvItemsFrom (gvFrom t) w = gvArrives l := by
          intro l
          induction l with
          | nil => intro _; exact ⟨.nil, by simp [gvItemsTo, GvEachItem, gvItemsFrom, gvArrives]⟩
          | cons v r _ ihr =>
            rintro ⟨hv, hr⟩
            obtain ⟨w, hw, hs, ho⟩ := ih.1 hg v hv
            obtain ⟨ws, hws, hss, hos⟩ := ihr hr
            exact ⟨.item w ws, by simp [gvItemsTo, hw, hws], ⟨hs, hss⟩, by simp [gvItemsFrom, gvArrives, ho, hos]⟩
          | _ => intro h; simp [GvEach] at h
        obtain ⟨w, hw, hs, ho⟩ := this l hl
        exact ⟨.array w, by simp [gvTo, he, hw], Or.inr ⟨w, rfl, hs⟩, by simp [gvFrom, gvArrives, hi, ho]⟩
  | struct ms ih =>
    refine ⟨?_, (by intro hg; cases hg)⟩
    intro hg v hv
    rcases hv with rfl | ⟨l, rfl, hl⟩
    · exact ⟨.none, by simp [gvTo], Or.inl rfl, by simp [gvFrom, gvArrives]⟩
    · obtain ⟨w, hw, hs, ho⟩ := ih.2 hg l hl
      exact ⟨.struct w, by simp [gvTo, hw], Or.inr ⟨w, rfl, hs⟩, by simp [gvFrom, gvArrives, aux_gv_check ms w hg hs, ho]⟩
  | nil =>
    refine ⟨(by intro h; cases h), ?_⟩
    rintro _ v hv
    simp [GvFits] at hv; subst hv
    exact ⟨.nil, by simp [gvTo, GvSent, gvFrom, gvArrives]⟩
  | member n t rest iht ihr =>
    refine ⟨(by intro h; cases h), ?_⟩
    rintro hg v ⟨x, r, rfl, hx, hr⟩
    cases hg with
    | struct hn hgt hg =>
      obtain ⟨w, hw, hs, ho⟩ := iht.1 hgt x hx
      obtain ⟨ws, hws, hss, hos⟩ := ihr.2 hg r hr
      refine ⟨.member n w ws, by simp [gvTo, hw, hws], ⟨w, ws, rfl, hs, hss⟩, ?_⟩
      simp [gvFrom, gvFind, gvArrives, ho, (aux_gv_skip n w rest ws hn hg).1, hos]

/-- C138: a value of a declared type, without base64 and with arrays of ints, bools, strings and structs only, is sent as an XML-RPC value of that type and arrives as it was, with empty
strings for NULL. -/
theorem C138_arrives_partial (t : GvType) (v : GvValue) (hg : GvGood t) (hv : GvFits t v) : ∃ w, gvTo t v = some w ∧ GvSent t w ∧ gvFrom t w = gvArrives v :=
  (aux_gv_good t).1 hg v hv

/-- An array of structs with an int, a string and a struct or NULL. -/
example : let s : GvType := .struct (.member (lit "a") .int (.member (lit "b") .string (.member (lit "c") (.struct (.member (lit "a") .double .nil)) .nil)))
    let v : GvValue := .ptr (.cons (.ptr (.cons (.num 4) (.cons (.text none) (.cons .null .nil)))) (.cons (.ptr (.cons (.num 5) (.cons (.text (some (lit "x"))) (.cons (.ptr (.cons (.num 7) .nil)) .nil)))) .nil))
    GvGood (.array s) ∧ GvFits (.array s) v := by
  intro s v
  refine ⟨.array (.struct (by decide) .int (.struct (by decide) .string (.struct (by decide) (.struct (by decide) .double .empty) .empty))) (by decide) (by simp [s]), ?_⟩
  refine Or.inr ⟨_, rfl, ⟨Or.inr ⟨_, rfl, ⟨_, _, rfl, ⟨_, rfl⟩, _, _, rfl, ⟨_, rfl⟩, _, _, rfl, Or.inl rfl, rfl⟩⟩, ⟨Or.inr ⟨_, rfl, ⟨_, _, rfl, ⟨_, rfl⟩, _, _, rfl, ⟨_, rfl⟩, _, _, rfl, Or.inr ⟨_, rfl, _, _, rfl, ⟨_, rfl⟩, rfl⟩, rfl⟩⟩, trivial⟩⟩⟩

/-- C138: what arrives has the shape of the type: a struct with other members, in number, name or type, gives NULL, and so does a value that is no struct. Only the members of type bool
are not looked at, and the members of members are looked at when these are read. -/
theorem C138_struct_partial (ms : GvType) (w : GvWire) (h : gvFrom (.struct ms) w ≠ .null) : ∃ l, w = .struct l ∧ GvShape ms l := by
  cases w with
  | struct l =>
    refine ⟨l, rfl, ?_⟩
    by_cases hc : gvCheck ms l = true
    · clear h
      induction ms generalizing l with
      | nil => cases l <;> simp [gvCheck] at hc; simp [GvShape]
      | member n t rest _ ih =>
        cases l <;> simp [gvCheck] at hc
        rename_i m x r
        refine ⟨x, r, by rw [hc.1.1], ?_, ih r hc.2⟩
        have := hc.1.2
        cases t <;> cases x <;> simp_all [gvTypeOk, GvKind]
      | _ => cases l <;> simp [gvCheck] at hc
    · simp [gvFrom, hc] at h
  | _ => simp [gvFrom] at h

example : gvFrom (.struct (.member (lit "a") .int .nil)) (.struct (.member (lit "a") (.int 3) .nil)) ≠ .null := by decide

/-- C138: strings are released twice only in types with arrays of strings. -/
theorem C138_released_partial (t : GvType) (w : GvWire) (h : ¬ GvHasStrings t) : gvBorrowed t w = 0 := by
  induction t generalizing w with
  | array t ih =>
    simp [GvHasStrings] at h
    have hs : ∀ l, gvSum (gvBorrowed t) l = 0 := by
      intro l
      induction l with
      | item x r _ ihr => simp [gvSum, ih x h.2, ihr]
      | _ => simp [gvSum]
    cases w <;> cases t <;> simp_all [gvBorrowed]
  | struct ms ih => cases w <;> simp [gvBorrowed]; intro _; exact ih _ h
  | member n t rest iht ihr =>
    simp [GvHasStrings] at h
    cases hf : gvFind n w with
    | none => simp [gvBorrowed, hf, ihr w h.2]
    | some x => simp [gvBorrowed, hf, ihr w h.2, iht x h.1]
  | _ => cases w <;> simp [gvBorrowed]

example : ¬ GvHasStrings (.struct (.member (lit "a") .string (.member (lit "b") (.array .int) .nil))) := by simp [GvHasStrings]

/-- C138: an array of ints, bools or structs has as many items as the one received. -/
theorem C138_length_partial (t : GvType) (l : GvWire) : ∃ v, gvFrom (.array t) (.array l) = .ptr v ∧ gvLength v = gvItems l := by
  refine ⟨_, rfl, ?_⟩
  generalize gvItem t (gvFrom t) = f
  induction l with
  | item x r _ ih => simp [gvItemsFrom, gvLength, gvItems, ih]
  | _ => simp [gvItemsFrom, gvLength, gvItems]

/-- C138 fails: every string of an array received is released twice. -/
theorem C138_strings (l : List (List Byte)) : ∃ w, gvTo (.array .string) (.ptr (gvTexts l)) = some w ∧ gvBorrowed (.array .string) w = l.length := by
  have : ∃ w, gvItemsTo (gvTo .string) (gvTexts l) = some w ∧ gvBorrowed (.array .string) (.array w) = l.length := by
    induction l with
    | nil => exact ⟨.nil, by simp [gvTexts, gvItemsTo, gvBorrowed, gvSum]⟩
    | cons a r ih =>
      obtain ⟨w, hw, hb⟩ := ih
      refine ⟨.item (.string a) w, by simp [gvTexts, gvItemsTo, hw, gvTo], ?_⟩
      simp [gvBorrowed, gvSum] at hb ⊢
      omega
  obtain ⟨w, hw, hb⟩ := this
  exact ⟨.array w, by simp [gvTo, gvElement, hw], hb⟩

/-- C138 fails: every double of an array arrives as -1. -/
theorem C138_doubles (n : Int) : ∃ w, gvTo (.array .double) (.ptr (.cons (.num n) .nil)) = some w ∧ gvFrom (.array .double) w = .ptr (.cons (.num (-1)) .nil) := by
  exact ⟨.array (.item (.double n) .nil), by simp [gvTo, gvElement, gvItemsTo, gvFrom, gvItem, gvItemsFrom, gvAsInt]⟩

/-- C138 fails: no value of type base64 in a struct or an array, and no array of arrays, can be sent. -/
theorem C138_base64 (v r : GvValue) (n : List Byte) (ms t : GvType) : gvTo (.struct (.member n .base64 ms)) (.ptr (.cons v r)) = none ∧ gvTo (.array .base64) v = none ∧ gvTo (.array (.array t)) v = none := by
  refine ⟨by simp [gvTo], ?_, ?_⟩ <;> cases v <;> simp [gvTo, gvElement]

/-- C138 fails: a struct in a struct with another member gives NULL and no error; so do an item of another type (-1) and a member of type bool (-1). -/
theorem C138_accepted :
    gvFrom (.struct (.member (lit "a") (.struct (.member (lit "b") .int .nil)) .nil)) (.struct (.member (lit "a") (.struct (.member (lit "c") (.int 3) .nil)) .nil)) = .ptr (.cons .null .nil) ∧
    gvFrom (.array .int) (.array (.item (.string (lit "x")) .nil)) = .ptr (.cons (.num (-1)) .nil) ∧
    gvFrom (.struct (.member (lit "a") .bool .nil)) (.struct (.member (lit "a") (.string (lit "x")) .nil)) = .ptr (.cons (.num (-1)) .nil) := by decide

theorem C138_statement_false : ¬ C138_statement := by
  intro h
  obtain ⟨w, hw, _, ho, _⟩ := h.1 (.array .double) (.ptr (.cons (.num 4) .nil)) (.array .double) (by simp [GvFits, GvEach])
  obtain ⟨w', hw', ho'⟩ := C138_doubles 4
  rw [hw] at hw'
  cases hw'
  rw [ho'] at ho
  simp [gvArrives] at ho

end Verif.Props
