import Verif.Model.Parse
/-!
# Reading frames from a socket (src/vortex_frame_factory.c)

The socket is modelled by a *script*: the list of things the successive `recv` calls will meet.
-/
namespace Verif.Model

/-- What the kernel has in store for the reader. -/
inductive Tok
  /-- the next octet of the stream -/
  | byte (b : Byte)
  /-- a single `recv` never returns octets from both sides of a `cut` (short read) -/
  | cut
  /-- a `recv` that meets this returns -1 with `errno == EAGAIN` -/
  | again
  /-- the peer closed: every later `recv` returns 0 -/
  | eof
  deriving DecidableEq, Repr

/-- Result of one `recv`. -/
inductive Recv
  | data (bs : List Byte)
  | again
  | eof
  deriving DecidableEq, Repr

/-- Up to `n` immediately available octets. -/
def takeBytes : Nat → List Tok → List Byte × List Tok
  | n + 1, .byte b :: r => (b :: (takeBytes n r).1, (takeBytes n r).2)
  | _, r => ([], r)

/-- `recv (session, buffer, n, 0)` with `n > 0` (src/vortex_connection.c:404-410) on a
non-blocking socket; `EINTR`, which the callers retry, does not appear. An exhausted script blocks. -/
def recv (n : Nat) : List Tok → Recv × List Tok
  | [] => (.again, [])
  | .again :: r => (.again, r)
  | .eof :: r => (.eof, .eof :: r)
  | .cut :: r => recv n r
  | .byte b :: r => (.data (takeBytes n (.byte b :: r)).1, (takeBytes n (.byte b :: r)).2)

/-- Result of `vortex_frame_readline`. -/
inductive Line
  /-- a line ended by LF -/
  | complete (line : List Byte)
  /-- the loop ended without LF: too long, or EOF after some octets -/
  | incomplete
  /-- -2: would block; the octets collected so far -/
  | again (got : List Byte)
  /-- 0: EOF before the first octet -/
  | eof
  deriving DecidableEq, Repr

/-- Loop of `vortex_frame_readline`, src/vortex_frame_factory.c:1362-1401. `fuel` is the number of
iterations left (`maxlen - desp - n`), `acc` the contents of `buffer`, `first` is `n == 1`. -/
def readlineLoop : (fuel : Nat) → (first : Bool) → (acc : List Byte) → List Tok → Line × List Tok
  | 0, _, _, r => (.incomplete, r)
  | _ + 1, _, acc, [] => (.again acc, [])
  | _ + 1, _, acc, .again :: r => (.again acc, r)
  | _ + 1, first, _, .eof :: r => (if first then .eof else .incomplete, .eof :: r)
  | fuel + 1, first, acc, .cut :: r => readlineLoop (fuel + 1) first acc r
  | fuel + 1, _, acc, .byte c :: r =>
    if c = LF then (.complete (acc ++ [c]), r) else readlineLoop fuel false (acc ++ [c]) r

/-- Fields of `struct _VortexConnection` used to resume interrupted reads. -/
structure ReadState where
  /-- `connection->pending_line` (a C string) -/
  pendingLine : Option (List Byte)
  /-- `connection->last_frame`, the octets already in `connection->buffer`
  (`bytes_read` of them) and `connection->remaining_bytes` -/
  partialFrame : Option (Frame × List Byte × Nat)
  /-- `connection->no_data_opers` -/
  noDataOpers : Nat
  deriving DecidableEq, Repr

/-- A connection with nothing pending. -/
def ReadState.init : ReadState := ⟨none, none, 0⟩

/-- What `vortex_frame_get_next` asks from the rest of the library about a header: whether
`vortex_connection_get_channel` finds the channel, and whether
`vortex_channel_check_incoming_seqno` accepts the frame (modelled in `Verif.Model.RecvWindow`). -/
structure ReadEnv where
  channelExists : Int → Bool
  seqnoOk : (channel : Int) → (seqno : Nat) → (size : Int) → Bool

/-- Outcome of `vortex_frame_get_next`. -/
inductive Next
  | frame (f : Frame) (st : ReadState)
  /-- `NULL` returned, connection still open -/
  | pending (st : ReadState)
  /-- `NULL` returned, connection shut down -/
  | shutdown
  /-- undefined behaviour: memory outside the header line was read -/
  | outsideLine
  /-- undefined behaviour: the payload buffer is accessed out of bounds -/
  | outsideBuffer
  deriving DecidableEq, Repr

/-- `axl_stream_cmp (line, "MSG", 3)` and following, src/vortex_frame_factory.c:1748-1760. -/
def frameType (line : List Byte) : Option FType :=
  if startsWith line (lit "MSG") then some .msg
  else if startsWith line (lit "RPY") then some .rpy
  else if startsWith line (lit "ANS") then some .ans
  else if startsWith line (lit "ERR") then some .err
  else if startsWith line (lit "NUL") then some .nul
  else if startsWith line (lit "SEQ") then some .seq
  else none

/-- `process_buffer:` of `vortex_frame_get_next`, src/vortex_frame_factory.c:1884-1921: `got` is
the `frame->size + 5` octets received. -/
def processBuffer (f : Frame) (got : List Byte) (st : ReadState) : Next :=
  if got.drop f.size.toNat = lit "END" ++ crlf then
    .frame { f with payload := got.take f.size.toNat } st
  else .shutdown

/-- The header part of `vortex_frame_get_next` once a complete line is available,
src/vortex_frame_factory.c:1719-1836. `inl` is a final outcome; `inr f` means the payload of `f`
has to be received. -/
def checkHeader (env : ReadEnv) (line : List Byte) (st : ReadState) : Next ⊕ Frame :=
  -- bytes_read == 1 || line[bytes_read - 1] != LF || line[bytes_read - 2] != CR
  if line.length = 1 ∨ ¬ (crlf <:+ line) then .inl .shutdown
  else match frameType line with
    | none => .inl .shutdown
    | some type =>
      match getHeaderData type (line.drop 4 ++ [NUL]) ((line.length : Int) - 4) with
      | .outside => .inl .outsideLine
      | .closed => .inl .shutdown
      | .wrong => .inl .shutdown
      | .sentinel f =>
        -- return value -1: channel check, SEQ accepted, otherwise -1 < 5
        if f.channel < 0 ∨ ¬ env.channelExists f.channel then .inl .shutdown
        else if type = .seq then .inl (.frame f st)
        else .inl .shutdown
      | .ok pos mc f =>
        if f.channel < 0 ∨ ¬ env.channelExists f.channel then .inl .shutdown
        else if type = .seq then .inl (.frame f st)
        else if pos < 5 then .inl .shutdown
        else if mc ≠ DOT ∧ mc ≠ STAR then .inl .shutdown
        else
          let f := { f with more := decide (mc ≠ DOT) }
          if env.seqnoOk f.channel f.seqno f.size then .inr f else .inl .shutdown

/-- Allocation and first read of the payload, src/vortex_frame_factory.c:1839-1882.
`malloc (size + 6)` with `size < -6` asks for more than 2^63 octets and fails, returning NULL
without closing; for `-6 ≤ size < 0` the code reads into, or compares in front of, a too small
buffer; for `size + 6 > INT_MAX` the addition overflows. -/
def readPayload (f : Frame) (st : ReadState) (script : List Tok) : Next × List Tok :=
  if f.size < -6 then (.pending st, script)
  else if f.size < 0 ∨ f.size + 6 > 2147483647 then (.outsideBuffer, script)
  else
    let want := f.size.toNat + 5
    match recv want script with
    | (.eof, r) => (.shutdown, r)
    | (.again, r) => (.pending { st with partialFrame := some (f, [], want) }, r)
    | (.data bs, r) =>
      if bs.length = want then (processBuffer f bs st, r)
      else (.pending { st with partialFrame := some (f, bs, want - bs.length) }, r)

/-- `vortex_frame_get_next`, src/vortex_frame_factory.c:1595-1923, together with
`vortex_frame_readline` (:1320-1409) and `vortex_frame_receive_raw` (:1253-1300). Not modelled: the
port-sharing check of the first bytes of a listener connection (:1607), closed sessions, and the
distinction between the reasons for closing. -/
def getNext (env : ReadEnv) (st : ReadState) (script : List Tok) : Next × List Tok :=
  match st.partialFrame with
  | some (f, got, remaining) =>
    -- resume: a would-block is indistinguishable from EOF here (:1630-1642)
    match recv remaining script with
    | (.again, r) => (.shutdown, r)
    | (.eof, r) => (.shutdown, r)
    | (.data bs, r) =>
      if bs.length ≠ remaining then
        (.pending { st with partialFrame := some (f, got ++ bs, remaining - bs.length) }, r)
      else (processBuffer f (got ++ bs) { st with partialFrame := none }, r)
  | none =>
    let desp := (st.pendingLine.getD []).length
    if desp ≥ 99 then (.shutdown, script)
    else
      match readlineLoop (98 - desp) true (st.pendingLine.getD []) script with
      | (.again got, r) =>
        let st := { st with
          pendingLine := if got = [] then none else some (got.takeWhile (· ≠ NUL))
          noDataOpers := st.noDataOpers + 1 }
        if st.noDataOpers > 25 then (.shutdown, r) else (.pending st, r)
      | (.eof, r) => (.shutdown, r)
      | (.incomplete, r) => (.shutdown, r)
      | (.complete line, r) =>
        let st := { st with pendingLine := none, noDataOpers := 0 }
        match checkHeader env line st with
        | .inl n => (n, r)
        | .inr f => readPayload f st r

/-- The level-triggered wait of the reader loop (`vortex_reader.c`, `__vortex_reader_process_socket`
is only called for descriptors reported readable): skip to the next octet or EOF. -/
def poll : List Tok → List Tok
  | .again :: r => poll r
  | .cut :: r => poll r
  | r => r

/-- How a run of the reader ends. -/
inductive Final
  | idle (st : ReadState)
  | shutdown
  | undefined
  deriving DecidableEq, Repr

/-- The reader loop: wait until readable, read a frame, hand it over, repeat. `σ` is the state of
the rest of the library, `envOf` what the frame reader asks from it and `handle` the processing
of a frame (`none` = the connection is closed by it). Returns the frames handed over. `calls`
bounds the number of calls to `vortex_frame_get_next`; every call consumes at least one item of the
script, so `script.length` calls are enough to exhaust it. -/
def drive {σ : Type} (envOf : σ → ReadEnv) (handle : σ → Frame → Option σ) :
    (calls : Nat) → σ → ReadState → List Tok → List Frame × σ × Final
  | 0, s0, st, _ => ([], s0, .idle st)
  | calls + 1, s0, st, script =>
    match poll script with
    | [] => ([], s0, .idle st)
    | t :: ts =>
      match getNext (envOf s0) st (t :: ts) with
      | (.frame f st', r) =>
        match handle s0 f with
        | none => ([f], s0, .shutdown)
        | some s1 =>
          let (fs, s2, fin) := drive envOf handle calls s1 st' r
          (f :: fs, s2, fin)
      | (.pending st', r) => drive envOf handle calls s0 st' r
      | (.shutdown, _) => ([], s0, .shutdown)
      | (.outsideLine, _) => ([], s0, .undefined)
      | (.outsideBuffer, _) => ([], s0, .undefined)

end Verif.Model
