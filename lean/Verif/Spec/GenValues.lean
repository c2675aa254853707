import Verif.Model.GenValues
/-!
# The conversions of structs and arrays (C138)
-/
namespace Verif.Spec
open Verif.Model

/-- The items of a list all have a property. -/
def GvEach (P : GvValue → Prop) : GvValue → Prop
  | .nil => True
  | .cons v r => P v ∧ GvEach P r
  | _ => False

/-- The values in C of a type. Pointers to structs and arrays, and strings, may be NULL. -/
def GvFits : GvType → GvValue → Prop
  | .int, v => ∃ n, v = .num n
  | .bool, v => ∃ n, v = .num n
  | .double, v => ∃ n, v = .num n
  | .string, v => ∃ s, v = .text s
  | .base64, v => ∃ s, v = .text s
  | .struct ms, v => v = .null ∨ ∃ l, v = .ptr l ∧ GvFits ms l
  | .array t, v => v = .null ∨ ∃ l, v = .ptr l ∧ GvEach (GvFits t) l
  | .nil, v => v = .nil
  | .member _ t rest, v => ∃ x r, v = .cons x r ∧ GvFits t x ∧ GvFits rest r

/-- The names of the members of a struct. -/
def gvNames : GvType → List (List Byte)
  | .member n _ rest => n :: gvNames rest
  | _ => []

/-- The types an interface can declare: structs have members with different names, whose types are types. -/
inductive GvWell : GvType → Prop
  | int : GvWell .int
  | bool : GvWell .bool
  | double : GvWell .double
  | string : GvWell .string
  | base64 : GvWell .base64
  | array {t : GvType} : GvWell t → GvWell (.array t)
  | empty : GvWell (.struct .nil)
  | struct {n : List Byte} {t ms : GvType} : n ∉ gvNames ms → GvWell t → GvWell (.struct ms) → GvWell (.struct (.member n t ms))

/-- Those for which the conversions are right: no base64, and arrays of ints, bools, strings and structs only. -/
inductive GvGood : GvType → Prop
  | int : GvGood .int
  | bool : GvGood .bool
  | double : GvGood .double
  | string : GvGood .string
  | array {t : GvType} : GvGood t → t ≠ .double → (∀ u, t ≠ .array u) → GvGood (.array t)
  | empty : GvGood (.struct .nil)
  | struct {n : List Byte} {t ms : GvType} : n ∉ gvNames ms → GvGood t → GvGood (.struct ms) → GvGood (.struct (.member n t ms))

/-- What arrives of a value: the same, with empty strings for NULL. -/
def gvArrives : GvValue → GvValue
  | .num n => .num n
  | .text none => .text (some [])
  | .text (some s) => .text (some s)
  | .null => .null
  | .ptr v => .ptr (gvArrives v)
  | .nil => .nil
  | .cons v r => .cons (gvArrives v) (gvArrives r)

/-- Some array of strings is part of the type. -/
def GvHasStrings : GvType → Prop
  | .array t => t = .string ∨ GvHasStrings t
  | .struct ms => GvHasStrings ms
  | .member _ t rest => GvHasStrings t ∨ GvHasStrings rest
  | _ => False

/-- The items of an XML-RPC array all have a property. -/
def GvEachItem (P : GvWire → Prop) : GvWire → Prop
  | .nil => True
  | .item w r => P w ∧ GvEachItem P r
  | _ => False

/-- The XML-RPC values of a type. -/
def GvSent : GvType → GvWire → Prop
  | .int, w => ∃ n, w = .int n
  | .bool, w => ∃ n, w = .boolean n
  | .double, w => ∃ n, w = .double n
  | .string, w => ∃ s, w = .string s
  | .base64, w => ∃ s, w = .base64 s
  | .struct ms, w => w = .none ∨ ∃ l, w = .struct l ∧ GvSent ms l
  | .array t, w => w = .none ∨ ∃ l, w = .array l ∧ GvEachItem (GvSent t) l
  | .nil, w => w = .nil
  | .member n t rest, w => ∃ x r, w = .member n x r ∧ GvSent t x ∧ GvSent rest r

/-- The XML-RPC type of a member; any for a bool. -/
def GvKind : GvType → GvWire → Prop
  | .int, w => ∃ n, w = .int n
  | .double, w => ∃ n, w = .double n
  | .string, w => ∃ s, w = .string s
  | .base64, w => ∃ s, w = .base64 s
  | .struct _, w => w = .none ∨ ∃ l, w = .struct l
  | .array _, w => w = .none ∨ ∃ l, w = .array l
  | _, _ => True

/-- The members of an XML-RPC struct have the names and the types of those declared, in order. -/
def GvShape : GvType → GvWire → Prop
  | .nil, w => w = .nil
  | .member n t rest, w => ∃ x r, w = .member n x r ∧ GvKind t x ∧ GvShape rest r
  | _, _ => False

/-- How many items. -/
def gvLength : GvValue → Nat
  | .cons _ r => gvLength r + 1
  | _ => 0

def gvItems : GvWire → Nat
  | .item _ r => gvItems r + 1
  | _ => 0

/-- The items of an array of strings. -/
def gvTexts : List (List Byte) → GvValue
  | [] => .nil
  | s :: r => .cons (.text (some s)) (gvTexts r)

/-- The whole property: a value of a declared type is sent as an XML-RPC value of the type, arrives as it was, and each of its strings is released once; an XML-RPC struct or array
that is not one of the type gives NULL. -/
def C138_statement : Prop :=
  (∀ t v, GvWell t → GvFits t v → ∃ w, gvTo t v = some w ∧ GvSent t w ∧ gvFrom t w = gvArrives v ∧ gvBorrowed t w = 0) ∧
  (∀ t w, GvWell t → ((∃ ms, t = .struct ms) ∨ ∃ u, t = .array u) → ¬ GvSent t w → gvFrom t w = .null)

end Verif.Spec
