/-!
# Tests of files and names of files (C157)

`vortex_support_file_test` (src/vortex_support.c:1098-1154), its flags (src/vortex_support.h:92-109) and `vortex_support_build_filename`
(src/vortex_support.c:738-768).

Simplifications: the file system does not change during the call and is a table of names, where a link carries the name it stands for;
permissions are left out. `stat` follows links up to a limit of the system.
-/
namespace Verif.Model

/-- What a name stands for in the file system. -/
inductive FttEntry
  | regular
  | dir
  /-- devices, sockets, pipes -/
  | other
  | link (target : String)
  deriving DecidableEq, Repr

/-- `stat` of the system: links are followed, `n` of them at most. -/
def fttStat (fs : String → Option FttEntry) : Nat → String → Option FttEntry
  | n, p =>
    match fs p with
    | some (.link t) =>
      match n with
      | 0 => none
      | n + 1 => fttStat fs n t
    | e => e

/-- `S_ISLNK`. -/
def fttIsLink : FttEntry → Bool
  | .link _ => true
  | _ => false

/-- `vortex_support_file_test`: `path` is `none` for NULL, the flags are bits 0 (exists), 1 (link), 2 (directory), 3 (regular). -/
def fttTest (fs : String → Option FttEntry) (limit : Nat) (path : Option String) (test : Nat) : Bool :=
  match path with
  -- :1104
  | none => false
  | some p =>
    match fttStat fs limit p with
    -- :1107-1113
    | none => false
    | some e =>
      -- :1126-1132
      if test.testBit 1 && !fttIsLink e then false
      -- :1135-1141
      else if test.testBit 3 && e ≠ .regular then false
      -- :1144-1151
      else if test.testBit 2 && e ≠ .dir then false
      else true

/-- The loop of `vortex_support_build_filename`, :754-761: the tokens end at the first NULL. -/
def fttJoin (sep : Char) (result : List Char) : List (Option (List Char)) → List Char
  | some t :: ts => fttJoin sep (result ++ sep :: t) ts
  | _ => result

/-- `vortex_support_build_filename`. -/
def fttBuild (sep : Char) : List (Option (List Char)) → Option (List Char)
  | some n :: ts => some (fttJoin sep n ts)
  | _ => none

end Verif.Model
