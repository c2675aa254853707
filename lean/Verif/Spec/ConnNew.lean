import Verif.Model.ConnNew
import Verif.Spec.Stream
import Verif.Spec.Greetings
/-! What C93 says about making a connection. -/
namespace Verif.Spec
open Verif.Model

/-- Every one of the next `n` waits finds octets, with time left. -/
def waitsReady (n : Nat) (ws : List (Int × Int)) : Prop := n ≤ ws.length ∧ ∀ w ∈ ws, 0 < w.1 ∧ 0 < w.2

/-- The library knows channel 0, and lets in what the peer sends there. -/
def letsIn (env : ReadEnv) (fs : List Frame) : Prop :=
  ∀ f ∈ fs, env.channelExists f.channel = true ∧ env.seqnoOk f.channel f.seqno f.size = true

/-- The TCP connection is made, and everything on this side works. -/
def newWorks (e : NewEnv) (left : Int) : Prop :=
  e.started = true ∧ e.nameOk = true ∧ e.sendOk = true ∧ ∃ sock err, tcpConnect e.tcp = some ⟨true, sock, err, left⟩

/-- The socket of a connection without a connect timeout blocks. -/
def newSane (e : NewEnv) : Prop := e.tcp.timeout ≤ 0 → .again ∉ e.script

/-- The caller learns the outcome: the function that was given is called, or the connection is returned. -/
def newTold (e : NewEnv) (ok : Bool) (told returned : Option Bool) : Prop :=
  if e.threaded then told = some ok ∧ returned = none else told = none ∧ returned = some ok

/-- Every frame arrives with its payload in one piece; the header lines may be cut, nothing blocks. -/
inductive DeliversWhole : List Frame → List Tok → Prop
  | nil (rest : List Tok) : DeliversWhole [] rest
  | cons (f : Frame) (fs : List Frame) (hs rest : List Tok) (header : List Byte)
      (hh : headerOf f = some header) (hd : octets hs = header) (he : .eof ∉ hs) (ha : .again ∉ hs) (hr : DeliversWhole fs rest) :
      DeliversWhole (f :: fs) (hs ++ ((bodyOf f).map .byte ++ rest))

/-- As `Delivers`, but the first header line is interrupted at most 24 times. -/
def DeliversSlowly (fs : List Frame) (script : List Tok) : Prop :=
  ∃ f fs' lead hs bs rest header, fs = f :: fs' ∧ script = lead ++ hs ++ bs ++ rest ∧
    (∀ t ∈ lead, t = .cut ∨ t = .again) ∧ headerOf f = some header ∧ octets hs = header ∧ blocks hs ≤ 24 ∧
    .eof ∉ hs ++ bs ∧ octets bs = bodyOf f ∧ Delivers fs' rest

/-- The frames are the greetings of a peer, which the library accepts: this is their text. -/
structure GreetingsOf (e : NewEnv) (fs : List Frame) (body : List Byte) : Prop where
  legal : ∀ f ∈ fs, Legal f
  first : FirstReply (fs.map VFrame.ofWire)
  content : contentOf (fs.map VFrame.ofWire) = headerBlock [(lit "Content-Type", lit "application/beep+xml")] ++ body
  window : letsIn e.gx.read fs
  valid : e.gx.parse body = true

/-- The state after `n` rounds, if the exchange is not over. -/
def gxSteps (e : GxEnv) : Nat → GxState → Option GxState
  | 0, s => some s
  | n + 1, s =>
    match gxStep e s with
    | .go t => gxSteps e n t
    | _ => none

end Verif.Spec
