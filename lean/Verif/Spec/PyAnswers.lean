import Verif.Model.PyAnswers
/-!
# Specification of the answers of handlers written in Python (C147)
-/
namespace Verif.Spec
open Verif.Model

/-- The handler said yes: it returned True, or any integer but zero. -/
def PhvSaidYes (o : PhvOut) : Prop := ∃ n, n ≠ 0 ∧ o = .ret (.int n)

/-- The handler named this text, one that C can hold. -/
def PhvNamed (o : PhvOut) (s : String) : Prop := '\x00' ∉ s.toList ∧ ∃ b, o = .ret (.str s b)

/-- The answer is about a password: the handler set the flag. -/
def PhvFlagged (flag : PhvVal) : Prop := ∃ n, n ≠ 0 ∧ flag = .int n

/-- The answer a program means by what its handler did. -/
inductive PhvMeant : PhvKind → PhvOut → PhvAns → Prop
  | yes (k : PhvKind) (o : PhvOut) : (k = .start ∨ k = .close ∨ k = .accept ∨ ∃ f, k = .sasl f ∧ ¬ PhvFlagged f) →
      PhvSaidYes o → PhvMeant k o .yes
  | no (k : PhvKind) (o : PhvOut) : (k = .start ∨ k = .close ∨ k = .accept ∨ ∃ f, k = .sasl f ∧ ¬ PhvFlagged f) →
      ¬ PhvSaidYes o → PhvMeant k o .no
  | path (o : PhvOut) (s : String) : PhvNamed o s → PhvMeant .cert o (.path (some s))
  | noPath (o : PhvOut) : (∀ s, ¬ PhvNamed o s) → PhvMeant .cert o (.path none)
  | secret (f : PhvVal) (o : PhvOut) (s : String) : PhvFlagged f → PhvNamed o s → PhvMeant (.sasl f) o (.secret (some s))
  | noSecret (f : PhvVal) (o : PhvOut) : PhvFlagged f → (∀ s, ¬ PhvNamed o s) → PhvMeant (.sasl f) o (.secret none)

/-- C147 in full: every handler is called and answers as meant, a connection is
shut down exactly if a handler raises at a listener, and nothing made for the call is kept. -/
def C147_statement : Prop :=
  ∀ c, (phvCall c).called = true ∧ PhvMeant c.kind c.out (phvCall c).ans ∧
    ((phvCall c).down = true ↔ c.out = .raised ∧ c.listener = true) ∧ (phvCall c).kept = false

/-- The integers in the result and in the flag fit in a C `int`. -/
def PhvFits (c : PhvCall) : Prop :=
  (∀ n, c.out = .ret (.int n) → -2147483648 ≤ n ∧ n ≤ 2147483647) ∧
  (∀ n, c.kind = .sasl (.int n) → -2147483648 ≤ n ∧ n ≤ 2147483647)

/-- The string returned is referred to by something else. -/
def PhvShared (o : PhvOut) : Prop := ∀ s b, o = .ret (.str s b) → b = true

/-- The result is nothing the TLS functions can read: for a request no integer,
for a certificate neither None nor a string without zeros. -/
def PhvUnread (c : PhvCall) : Prop :=
  (c.kind = .accept ∧ ∃ v, c.out = .ret v ∧ ∀ n : Int, -2147483648 ≤ n → n ≤ 2147483647 → v ≠ .int n) ∨
  (c.kind = .cert ∧ ∃ v, c.out = .ret v ∧ v ≠ .none ∧ ∀ s, ¬ PhvNamed c.out s)

end Verif.Spec
