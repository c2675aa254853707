/-!
# Names of SASL mechanisms in the bindings (C160)

`py_vortex_sasl_normalize_profile_name` (py-vortex/src/py_vortex_sasl.c:160-192) and `lua_vortex_sasl_normalize_profile_name`
(lua-vortex/src/lua-vortex-sasl.c:61-90), which are the same function, with the names of sasl/vortex_sasl.h:61-93.

Simplifications: `axl_memcmp` (a comparison of the first octets) and `axl_casecmp` (equality without regard to case), which belong to axl,
are modelled by what their documentation says.
-/
namespace Verif.Model

/-- The mechanisms, sasl/vortex_sasl.h:61-93. -/
inductive SpnMech
  | plain | anonymous | external | cramMd5 | digestMd5 | gssapi | kerberosV4
  deriving DecidableEq, Repr

/-- The profiles without their first 26 octets, sasl/vortex_sasl.h:61-93. -/
def spnShort : SpnMech → List Char
  | .plain => ['P', 'L', 'A', 'I', 'N']
  | .anonymous => ['A', 'N', 'O', 'N', 'Y', 'M', 'O', 'U', 'S']
  | .external => ['E', 'X', 'T', 'E', 'R', 'N', 'A', 'L']
  | .cramMd5 => ['C', 'R', 'A', 'M', '-', 'M', 'D', '5']
  | .digestMd5 => ['D', 'I', 'G', 'E', 'S', 'T', '-', 'M', 'D', '5']
  | .gssapi => ['G', 'S', 'S', 'A', 'P', 'I']
  | .kerberosV4 => ['K', 'E', 'R', 'B', 'E', 'R', 'O', 'S', '_', 'V', '4']

/-- "http://iana.org/beep/SASL", py_vortex_sasl.c:165. -/
def spnBase : List Char :=
  ['h', 't', 't', 'p', ':', '/', '/', 'i', 'a', 'n', 'a', '.', 'o', 'r', 'g', '/', 'b', 'e', 'e', 'p', '/', 'S', 'A', 'S', 'L']

/-- The profile of a mechanism, sasl/vortex_sasl.h:61-93. -/
def spnProfile (m : SpnMech) : List Char := spnBase ++ '/' :: spnShort m

/-- `axl_casecmp`. -/
def spnSame : List Char → List Char → Bool
  | [], [] => true
  | a :: s, b :: t => a.toLower == b.toLower && spnSame s t
  | _, _ => false

/-- The function; `none` is NULL. -/
def spnNormalize (p : List Char) : Option (List Char) :=
  -- :165-166
  if spnBase.isPrefixOf p then some p
  -- :169-185
  else if spnSame (spnShort .plain) p then some (spnProfile .plain)
  else if spnSame (spnShort .anonymous) p then some (spnProfile .anonymous)
  else if spnSame (spnShort .external) p then some (spnProfile .external)
  else if spnSame (spnShort .cramMd5) p then some (spnProfile .cramMd5)
  else if spnSame (spnShort .digestMd5) p then some (spnProfile .digestMd5)
  else if spnSame (spnShort .gssapi) p then some (spnProfile .gssapi)
  -- :187: the name of the mechanism is compared with a constant, not with the name received
  else if spnSame (spnShort .kerberosV4) ['k', 'e', 'r', 'b', 'e', 'r', 'o', 's', '_', 'v', '4'] then some (spnProfile .kerberosV4)
  else none

end Verif.Model
