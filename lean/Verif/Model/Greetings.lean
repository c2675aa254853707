import Verif.Model.FrameOps
import Verif.Model.Sender
/-!
# The greetings (src/vortex_greetings.c, src/vortex_listener.c, src/vortex_connection.c)
-/
namespace Verif.Model

/-! ## Building the message -/

/-- Outcome of `__vortex_greetings_build_message`. -/
inductive GreetingBuild
  /-- it returns -1 -/
  | refused
  /-- it returns the number of octets written, which are these -/
  | built (octets : List Byte)
  /-- it writes behind the end of the buffer -/
  | overrun
  deriving DecidableEq, Repr

/-- `memcpy (greetings_buffer + next_index, octets, …); next_index += …` for a buffer of `size` octets, of which the
first `next_index` are `b`; `none`: it writes behind the end. -/
def greetingPut (size : Nat) (b octets : List Byte) : Option (List Byte) :=
  if b.length + octets.length ≤ size then some (b ++ octets) else none

/-- The attribute `name` of the greetings, src/vortex_greetings.c:97-106 and :108-117. -/
def greetingAttribute (size : Nat) (name : List Byte) (value : Option (List Byte)) (b : List Byte) : Option (List Byte) :=
  match value with
  | none => some b
  | some v => do
    let b ← greetingPut size b (lit " " ++ name ++ lit "='")
    let b ← greetingPut size b v
    greetingPut size b (lit "'")

/-- The loop over the profiles, src/vortex_greetings.c:126-173; `filtered` is the answer of
`vortex_connection_is_profile_filtered` (see `Verif.Model.Start` for the masks). -/
def greetingProfiles (size : Nat) (filtered : List Byte → Bool) (b : List Byte) : List (List Byte) → GreetingBuild
  | [] =>
    match greetingPut size b (lit "</greeting>\r\n") with
    | none => .overrun
    | some b => .built b
  | uri :: l =>
    if filtered uri then greetingProfiles size filtered b l
    else if b.length + uri.length + 36 ≥ size then .refused
    else
      match (do
        let b ← greetingPut size b (lit "   <profile uri='")
        let b ← greetingPut size b uri
        greetingPut size b (lit "' />\r\n")) with
      | none => .overrun
      | some b => greetingProfiles size filtered b l

/-- `__vortex_greetings_build_message`, src/vortex_greetings.c:64-183. The buffer has 5100 octets (:208, :480). The
strings are C strings: without zero octets. -/
def buildGreeting (size : Nat) (features localize : Option (List Byte)) (filtered : List Byte → Bool)
    (profiles : List (List Byte)) : GreetingBuild :=
  if (features.getD []).length + (localize.getD []).length + 36 ≥ size then .refused
  else
    match (do
      let b ← greetingPut size [] (lit "<greeting")
      let b ← greetingAttribute size (lit "features") features b
      greetingAttribute size (lit "localize") localize b) with
    | none => .overrun
    | some b =>
      if profiles = [] then
        match greetingPut size b (lit " />\r\n") with
        | none => .overrun
        | some b => .built b
      else
        match greetingPut size b (lit ">\r\n") with
        | none => .overrun
        | some b => greetingProfiles size filtered b profiles

/-! ## Receiving it -/

/-- What comes out of one frame received before the greetings are complete. -/
inductive GreetStep
  /-- more fragments are needed -/
  | waiting
  /-- the connection is shut down -/
  | refused
  /-- a read outside of the memory of the frame (`vortex_frame_mime_process`) -/
  | outside
  /-- the greetings are complete: their XML text -/
  | accepted (body : List Byte)
  deriving DecidableEq, Repr

/-- The type of a complete frame: `vortex_frame_mime_process` and `vortex_frame_get_content_type`,
src/vortex_frame_factory.c:3247-3347 and :2561-2576. `none`: a read outside. -/
def greetingType (tl content : List Byte) : Option (List Byte) :=
  match mimeProcess tl content with
  | .outside => none
  | .notMime => some (lit "application/octet-stream")
  | .ok hs _ =>
    match (hs.foldl (fun s h => s.set h.1 h.2) MimeStatus.init).find (lit "Content-Type") with
    | [] => some (lit "application/octet-stream")
    | h :: _ => some (cstr h.content)

/-- `vortex_greetings_is_reply_ok`, src/vortex_greetings.c:401-460, after `vortex_frame_mime_process` (:312). A frame of
which nothing could be made a MIME content has the default type too here; in the code the type is NULL when the frame
was built from fragments. Either way it is refused. -/
def greetingReply (tl : List Byte) (f : VFrame) : GreetStep :=
  let content := f.payload.getD []
  match greetingType tl content with
  | none => .outside
  | some t =>
    if f.type = .err then .refused
    else if f.type ≠ .rpy then .refused
    else if f.channel ≠ 0 ∨ f.msgno ≠ 0 ∨ f.seqno ≠ 0 then .refused
    else if t ≠ lit "application/beep+xml" then .refused
    else
      match mimeBody tl content with
      | none => .outside
      | some body => .accepted body

/-- `vortex_greetings_process`, src/vortex_greetings.c:271-325 (initiator): `pending` is the data
`VORTEX_GREETINGS_PENDING_FRAME` of the connection. When the frames cannot be joined, `vortex_greetings_is_reply_ok` is
called with NULL, whose type is not RPY. -/
def clientGreeting (pending : Option VFrame) (f : VFrame) : GreetStep × Option VFrame :=
  match pending with
  | none => if f.more then (.waiting, some f) else (greetingReply wireTail f, none)
  | some p =>
    match p.join f with
    | none => (.refused, none)
    | some g => if g.more then (.waiting, some g) else (greetingReply builtTail g, none)

/-- `__vortex_listener_second_step_accept`, src/vortex_listener.c:357-417. When the frames cannot be joined,
`vortex_frame_get_more_flag (NULL)` is -1, which counts as true (:377), and NULL is stored. -/
def listenerGreeting (pending : Option VFrame) (f : VFrame) : GreetStep × Option VFrame :=
  match pending with
  | none => if f.more then (.waiting, some f) else (greetingReply wireTail f, none)
  | some p =>
    match p.join f with
    | none => (.waiting, none)
    | some g => if g.more then (.waiting, some g) else (greetingReply builtTail g, none)

/-- Frames received one after the other, until the greetings are accepted or the connection is shut down; the frames
left. -/
def greetingRun (process : Option VFrame → VFrame → GreetStep × Option VFrame) (pending : Option VFrame) :
    List VFrame → GreetStep × Option VFrame × List VFrame
  | [] => (.waiting, pending, [])
  | f :: fs =>
    match process pending f with
    | (.waiting, p) => greetingRun process p fs
    | (r, p) => (r, p, fs)

/-! ## The exchange -/

/-- One endpoint during the greetings: channel 0 as seen by the sending thread, the pending fragment, what came out. -/
structure GreetEnd where
  snd : SendChan
  pending : Option VFrame
  out : GreetStep
  deriving DecidableEq, Repr

/-- Initiator, listener, and the frames written by each and not read by the other. -/
structure GreetLink where
  client : GreetEnd
  listener : GreetEnd
  up : List Frame
  down : List Frame
  deriving DecidableEq, Repr

/-- `vortex_channel_send_rpy (channel 0, …, 0)` (src/vortex_greetings.c:239 and :503): the content with its MIME header
is queued. -/
def GreetEnd.send (e : GreetEnd) (content : List Byte) : GreetEnd :=
  { e with snd := e.snd.queue ⟨.rpy, 0, 0, 0, false, content⟩ }

def GreetEnd.init : GreetEnd := ⟨.init, none, .waiting⟩

/-- The initiator sends its greetings when it is connected (src/vortex_connection.c:1907); the listener on accept if so
configured (`early`, src/vortex_listener.c:175-179). -/
def GreetLink.init (early : Bool) (clientContent listenerContent : List Byte) : GreetLink :=
  ⟨GreetEnd.init.send clientContent, if early then GreetEnd.init.send listenerContent else .init, [], []⟩

/-- A frame as `vortex_frame_get_next` hands it over. -/
def VFrame.ofWire (f : Frame) : VFrame :=
  ⟨f.type, f.channel, f.msgno, f.more, f.seqno, f.size, f.ansno, 0, some f.payload, none, none⟩

/-- The sending thread visits channel 0. -/
def GreetEnd.round (e : GreetEnd) : GreetEnd × List Frame :=
  match e.snd.round with
  | none => ({ e with out := .refused }, [])
  | some (c, f) => ({ e with snd := c }, f.toList)

/-- One frame is read: the window test of src/vortex_frame_factory.c:1829 (nothing of the greetings moves the window,
no SEQ frame is written), then `process`. -/
def GreetEnd.read (process : Option VFrame → VFrame → GreetStep × Option VFrame) (e : GreetEnd) (f : Frame) : GreetEnd :=
  if !RecvWin.init.check f.seqno f.size then { e with out := .refused }
  else
    let r := process e.pending (VFrame.ofWire f)
    { e with pending := r.2, out := r.1 }

inductive GreetOp
  | clientRound
  | listenerRound
  | clientRead
  | listenerRead
  deriving DecidableEq, Repr

/-- One step. An endpoint that is not waiting any more does not read here: the greetings are over for it. -/
def GreetLink.step (early : Bool) (listenerContent : List Byte) (l : GreetLink) : GreetOp → GreetLink
  | .clientRound =>
    let r := l.client.round
    { l with client := r.1, up := l.up ++ r.2 }
  | .listenerRound =>
    let r := l.listener.round
    { l with listener := r.1, down := l.down ++ r.2 }
  | .clientRead =>
    match l.client.out, l.down with
    | .waiting, f :: fs => { l with client := l.client.read clientGreeting f, down := fs }
    | _, _ => l
  -- the listener answers with its own greetings, unless it has sent them (src/vortex_listener.c:436, vo:greetings-sent)
  | .listenerRead =>
    match l.listener.out, l.up with
    | .waiting, f :: fs =>
      let e := l.listener.read listenerGreeting f
      let e := match e.out with
        | .accepted _ => if early then e else e.send listenerContent
        | _ => e
      { l with listener := e, up := fs }
    | _, _ => l

def GreetLink.run (early : Bool) (listenerContent : List Byte) (l : GreetLink) : List GreetOp → GreetLink
  | [] => l
  | op :: ops => (l.step early listenerContent op).run early listenerContent ops

end Verif.Model
