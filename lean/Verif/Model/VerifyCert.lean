import Verif.Model.CInt
/-!
# Verifying the certificate of the peer

`vortex_tls_verify_cert` of tls/vortex_tls.c. OpenSSL's own verification is any answer; `X509_NAME_get_text_by_NID` is modelled as OpenSSL
implements it. Not modelled: common names in wide encodings (their octets are copied as they are), what is below `axl_cmp`.
-/
namespace Verif.Model

/-- What the connection has when the call is made. -/
structure VcConn where
  /-- the connection is marked as secured -/
  secured : Bool
  /-- an SSL object is kept with the connection; `verified`: `SSL_get_verify_result` gives X509_V_OK -/
  ssl : Bool
  verified : Bool
  /-- the certificate of the peer: the octets of its common names, in order; an ASN.1 string may hold any octet -/
  peer : Option (List (List Byte))
  /-- `serverName`, a C string -/
  serverName : Option (List Byte)
  deriving DecidableEq, Repr

/-- `X509_NAME_get_text_by_NID` (OpenSSL) with a buffer: the octets of the first common name, as many as fit, and a NUL; nothing is written
when there is none. -/
def vcCommonName (names : List (List Byte)) (buffer : List Byte) : List Byte :=
  match names with
  | [] => buffer
  | n :: _ =>
    let t := n.take (buffer.length - 1)
    t ++ 0 :: buffer.drop (t.length + 1)

/-- `axl_cmp` (axl) of a buffer with a C string: `none`: it reads behind the buffer. -/
def vcCmp : List Byte → List Byte → Option Bool
  | [], _ => none
  | b :: _, [] => some (decide (b = 0))
  | b :: r, s :: t => if b = 0 then some false else if b = s then vcCmp r t else some false

/-- How a call ends; `kept`: the references to certificates it took and did not release. -/
inductive VcEnd
  | crash
  | returned (ok : Bool) (kept : Nat)
  deriving DecidableEq, Repr

/-- `vortex_tls_verify_cert` (tls/vortex_tls.c:942-1001); `stack`: what is in `peer_common_name` before anything is written to it (512 octets
of the stack). The reference that `SSL_get_peer_certificate` takes (:981) is not released on any path. -/
def vcVerify (stack : List Byte) : Option VcConn → VcEnd
  | none => .returned false 0
  | some c =>
    if !c.secured then .returned false 0
    else if !c.ssl then .returned false 0
    else if !c.verified then .returned false 0
    else
      match c.peer with
      | none => .returned false 0
      | some names =>
        match c.serverName with
        | none => .returned false 1
        | some s =>
          match vcCmp (vcCommonName names stack) s with
          | none => .crash
          | some b => .returned b 1

end Verif.Model
