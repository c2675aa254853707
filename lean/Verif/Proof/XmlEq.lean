import Verif.Model.XmlRpc
/-!
# Equality of XML-RPC values is decidable (used by concrete cases)
-/
namespace Verif.Model

mutual
def XVal.same : XVal → XVal → Bool
  | .int a, .int b => a == b
  | .boolean a, .boolean b => a == b
  | .double a, .double b => a == b
  | .string a, .string b => a == b
  | .base64 a, .base64 b => a == b
  | .date, .date => true
  | .none, .none => true
  | .struct a, .struct b => sameMembers a b
  | .array a, .array b => sameValues a b
  | .null, .null => true
  | _, _ => false

def sameMembers : List (List Byte × XVal) → List (List Byte × XVal) → Bool
  | [], [] => true
  | a :: as, b :: bs => sameMember a b && sameMembers as bs
  | _, _ => false

def sameMember : List Byte × XVal → List Byte × XVal → Bool
  | (n, a), (m, b) => n == m && a.same b

def sameValues : List XVal → List XVal → Bool
  | [], [] => true
  | a :: as, b :: bs => a.same b && sameValues as bs
  | _, _ => false
end

mutual
theorem XVal.same_iff : ∀ a b : XVal, a.same b = true ↔ a = b
  | .int _, b => by cases b <;> simp [XVal.same]
  | .boolean _, b => by cases b <;> simp [XVal.same]
  | .double _, b => by cases b <;> simp [XVal.same]
  | .string _, b => by cases b <;> simp [XVal.same]
  | .base64 _, b => by cases b <;> simp [XVal.same]
  | .date, b => by cases b <;> simp [XVal.same]
  | .none, b => by cases b <;> simp [XVal.same]
  | .struct ms, b => by cases b <;> simp [XVal.same]; exact sameMembers_iff ms _
  | .array vs, b => by cases b <;> simp [XVal.same]; exact sameValues_iff vs _
  | .null, b => by cases b <;> simp [XVal.same]

theorem sameMembers_iff : ∀ a b : List (List Byte × XVal), sameMembers a b = true ↔ a = b
  | [], b => by cases b <;> simp [sameMembers]
  | m :: ms, b => by
    cases b with
    | nil => simp [sameMembers]
    | cons x xs => simp [sameMembers, sameMember_iff m x, sameMembers_iff ms xs]

theorem sameMember_iff : ∀ a b : List Byte × XVal, sameMember a b = true ↔ a = b
  | (n, a), (m, b) => by simp [sameMember, XVal.same_iff a b]

theorem sameValues_iff : ∀ a b : List XVal, sameValues a b = true ↔ a = b
  | [], b => by cases b <;> simp [sameValues]
  | v :: vs, b => by
    cases b with
    | nil => simp [sameValues]
    | cons x xs => simp [sameValues, XVal.same_iff v x, sameValues_iff vs xs]
end

instance : DecidableEq XVal := fun a b => decidable_of_iff _ (XVal.same_iff a b)

deriving instance DecidableEq for XCall
deriving instance DecidableEq for XResponse
deriving instance DecidableEq for XReply

end Verif.Model
