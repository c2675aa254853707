/-!
# Profiles registered (src/vortex_profiles.c)

Profiles (uris), handlers, data, MIME types are numbers. First the registry used by one thread, then the life of the record of one
profile under concurrent use. Simplified: the context works, uris are not NULL, memory is available.
-/
namespace Verif.Model

/-- `VortexProfile`, src/vortex_profiles.c:45-62: handlers with the data given with them; `none` is the default handler for `start` and
`close`, and NULL for the others. -/
structure ProfSettings where
  start : Option (Nat × Nat)
  ext : Option (Nat × Nat)
  close : Option (Nat × Nat)
  received : Option (Nat × Nat)
  mime : Option Nat
  encoding : Option Nat
  autoMime : Nat
  deriving DecidableEq, Repr

/-- `axl_new`: all zero, with the default handlers. -/
def ProfSettings.new : ProfSettings := ⟨none, none, none, none, none, none, 0⟩

structure ProfReg where
  /-- `ctx->registered_profiles` -/
  table : List (Nat × ProfSettings)
  /-- `ctx->profiles_list` -/
  list : List Nat
  /-- `ctx->global_channel_start_extended` -/
  global : Option (Nat × Nat)
  deriving DecidableEq, Repr

def ProfReg.init : ProfReg := ⟨[], [], none⟩

inductive ProfOp
  /-- `vortex_profiles_register` -/
  | register (uri : Nat) (start close received : Option (Nat × Nat))
  /-- `vortex_profiles_register_extended_start` -/
  | registerExt (uri : Nat) (ext : Option (Nat × Nat))
  /-- `vortex_profiles_set_received_handler` -/
  | setReceived (uri : Nat) (received : Option (Nat × Nat))
  /-- `vortex_profiles_unregister` -/
  | unregister (uri : Nat)
  /-- `vortex_profiles_set_mime_type` -/
  | setMime (uri : Nat) (mime encoding : Option Nat)
  /-- `vortex_profiles_set_automatic_mime` -/
  | setAuto (uri value : Nat)
  /-- `vortex_ctx_set_channel_start_handler` -/
  | setGlobal (h : Option (Nat × Nat))
  deriving DecidableEq, Repr

/-- `vortex_hash_lookup (ctx->registered_profiles, uri)`. -/
def ProfReg.find (r : ProfReg) (uri : Nat) : Option ProfSettings := r.table.lookup uri

/-- The record of `uri` is changed in place. -/
def ProfReg.modify (r : ProfReg) (uri : Nat) (f : ProfSettings → ProfSettings) : ProfReg :=
  { r with table := r.table.map fun e => if e.1 = uri then (e.1, f e.2) else e }

/-- A new record: `vortex_hash_replace` and `axl_list_append`, src/vortex_profiles.c:349-352, 665-676. -/
def ProfReg.create (r : ProfReg) (uri : Nat) (p : ProfSettings) : ProfReg :=
  { r with table := (uri, p) :: r.table.filter (·.1 ≠ uri), list := r.list ++ [uri] }

/-- src/vortex_profiles.c:317-375 (register), 401-433 (set_received_handler), 450-476 (unregister; the name in the list is found by its
address), 512-543 (set_mime_type), 642-687 (register_extended_start), 1353-1371 (set_automatic_mime; values above 2 are ignored and
the function tells nothing). The result is what the function returns. -/
def ProfReg.step (r : ProfReg) : ProfOp → ProfReg × Bool
  | .register uri s c v =>
    match r.find uri with
    | none => (r.create uri { ProfSettings.new with start := s, close := c, received := v }, true)
    | some _ => (r.modify uri fun p => { p with start := s, close := c, received := v }, true)
  | .registerExt uri e =>
    match r.find uri with
    | none => (r.create uri { ProfSettings.new with ext := e }, true)
    | some _ => (r.modify uri fun p => { p with ext := e }, true)
  | .setReceived uri v =>
    match r.find uri with
    | none => (r, false)
    | some _ => (r.modify uri fun p => { p with received := v }, true)
  | .unregister uri =>
    match r.find uri with
    | none => (r, false)
    | some _ => ({ r with table := r.table.filter (·.1 ≠ uri), list := r.list.erase uri }, true)
  | .setMime uri m t =>
    match r.find uri with
    | none => (r, false)
    | some _ => (r.modify uri fun p => { p with mime := m.or p.mime, encoding := t.or p.encoding }, true)
  | .setAuto uri v =>
    if v ≤ 2 then
      match r.find uri with
      | none => (r, true)
      | some _ => (r.modify uri fun p => { p with autoMime := v }, true)
    else (r, true)
  | .setGlobal h => ({ r with global := h }, true)

def ProfReg.run (r : ProfReg) (ops : List ProfOp) : ProfReg := ops.foldl (fun r op => (r.step op).1) r

/-- `vortex_profiles_is_registered`, src/vortex_profiles.c:1309-1319. -/
def ProfReg.isRegistered (r : ProfReg) (uri : Nat) : Bool := (r.find uri).isSome

/-- Who decides about the start of a channel. -/
inductive StartWho
  /-- the profile is not registered -/
  | refused
  | extended (h : Nat × Nat)
  | global (h : Nat × Nat)
  | start (h : Nat × Nat)
  /-- the default handler, which accepts -/
  | accepted
  deriving DecidableEq, Repr

/-- `vortex_profiles_invoke_start`, src/vortex_profiles.c:718-782. -/
def ProfReg.startWho (r : ProfReg) (uri : Nat) : StartWho :=
  match r.find uri with
  | none => .refused
  | some p =>
    match p.ext with
    | some h => .extended h
    | none =>
      match p.start, r.global with
      | none, some g => .global g
      | some h, _ => .start h
      | none, none => .accepted

/-- `vortex_profiles_invoke_close`, src/vortex_profiles.c:830-859: `none` if the profile is not registered, `some none` for the default
handler. -/
def ProfReg.closeWho (r : ProfReg) (uri : Nat) : Option (Option (Nat × Nat)) :=
  match r.find uri with
  | none => none
  | some p => some p.close

/-- `vortex_profiles_invoke_frame_received`, src/vortex_profiles.c:1054-1062: the handler that gets the frame. -/
def ProfReg.receivedWho (r : ProfReg) (uri : Nat) : Option (Nat × Nat) :=
  match r.find uri with
  | none => none
  | some p => p.received

/-- `vortex_profiles_is_defined_received`, src/vortex_profiles.c:1133-1152: it tests `profile->close`, which is never NULL (lines 339,
673). -/
def ProfReg.definedReceived (r : ProfReg) (uri : Nat) : Bool :=
  match r.find uri with
  | none => false
  | some _ => true

/-- `vortex_profiles_get_mime_type`, `vortex_profiles_get_transfer_encoding`, src/vortex_profiles.c:560-611: `none` is NULL, `some none`
is the default text. -/
def ProfReg.mimeOf (r : ProfReg) (uri : Nat) : Option (Option Nat × Option Nat) :=
  match r.find uri with
  | none => none
  | some p => some (p.mime, p.encoding)

/-- `vortex_profiles_get_automatic_mime`, src/vortex_profiles.c:1390-1405. -/
def ProfReg.autoOf (r : ProfReg) (uri : Nat) : Nat :=
  match r.find uri with
  | none => 0
  | some p => p.autoMime

/-! ## The life of a record -/

/-- One record for the uri: references, and the start handler with its data. It is released when there are no references. -/
structure ProfRec where
  refs : Nat
  fn : Nat
  data : Nat
  deriving DecidableEq, Repr

/-- A thread. -/
inductive ProfPc
  | out
  /-- in `vortex_profiles_register` after the mutex was released, src/vortex_profiles.c:360: about to write the handler -/
  | update (rec fn data : Nat)
  /-- about to write the data, line 368 -/
  | updateData (rec data : Nat)
  /-- in `vortex_profiles_invoke_start`, with a reference and the handler read, line 740 -/
  | holds (rec fn : Nat)
  /-- in the handler, line 774 -/
  | calls (rec : Nat)
  deriving DecidableEq, Repr

structure ProfLife where
  /-- the record in the table -/
  current : Option Nat
  recs : Nat → ProfRec
  next : Nat
  pc : Nat → ProfPc

def ProfLife.init : ProfLife := ⟨none, fun _ => ⟨0, 0, 0⟩, 0, fun _ => .out⟩

inductive ProfAct
  /-- thread `i` calls `vortex_profiles_register` -/
  | register (i fn data : Nat)
  /-- a thread calls `vortex_profiles_unregister` -/
  | unregister
  /-- thread `i` calls `vortex_profiles_invoke_start` for a start message -/
  | start (i : Nat)
  /-- the next step of thread `i` -/
  | go (i : Nat)
  deriving DecidableEq, Repr

def ProfLife.at (s : ProfLife) (i : Nat) (pc : ProfPc) : ProfLife := { s with pc := fun j => if j = i then pc else s.pc j }
def ProfLife.put (s : ProfLife) (k : Nat) (r : ProfRec) : ProfLife := { s with recs := fun j => if j = k then r else s.recs j }

/-- `__vortex_profiles_unref`, src/vortex_profiles.c:153-175. -/
def ProfRec.unref (r : ProfRec) : ProfRec := { r with refs := r.refs - 1 }

/-- A step; what is called, if a handler is; `none` if a released record is used. Without extended and global handlers. -/
def ProfLife.step (s : ProfLife) : ProfAct → Option (ProfLife × List (Nat × Nat))
  | .register i fn data =>
    match s.pc i with
    | .out =>
      match s.current with
      | none => some ({ s with current := some s.next, next := s.next + 1 }.put s.next ⟨1, fn, data⟩, [])
      | some k => some (s.at i (.update k fn data), [])
    | _ => some (s, [])
  | .unregister =>
    match s.current with
    | none => some (s, [])
    | some k => some ({ s with current := none }.put k (s.recs k).unref, [])
  | .start i =>
    match s.pc i with
    | .out =>
      match s.current with
      | none => some (s, [])
      | some k => some ((s.put k { s.recs k with refs := (s.recs k).refs + 1 }).at i (.holds k (s.recs k).fn), [])
    | _ => some (s, [])
  | .go i =>
    match s.pc i with
    | .out => some (s, [])
    | .update k fn data => if (s.recs k).refs = 0 then none else some ((s.put k { s.recs k with fn := fn }).at i (.updateData k data), [])
    | .updateData k data => if (s.recs k).refs = 0 then none else some ((s.put k { s.recs k with data := data }).at i .out, [])
    | .holds k fn => if (s.recs k).refs = 0 then none else some (s.at i (.calls k), [(fn, (s.recs k).data)])
    | .calls k => if (s.recs k).refs = 0 then none else some ((s.put k (s.recs k).unref).at i .out, [])

def ProfLife.run (s : ProfLife) : List ProfAct → Option (ProfLife × List (Nat × Nat))
  | [] => some (s, [])
  | a :: as =>
    match s.step a with
    | none => none
    | some r =>
      match r.1.run as with
      | none => none
      | some q => some (q.1, r.2 ++ q.2)

end Verif.Model
