import Verif.Model.CInt
/-!
# Digests and fingerprints of certificates

`vortex_tls_get_digest`, `vortex_tls_get_digest_sized`, `vortex_tls_get_peer_ssl_digest` and `vortex_tls_get_ssl_digest` of
tls/vortex_tls.c. The digest functions of OpenSSL are any functions. Not modelled: failing allocations; numbers that are no `VortexDigestMethod`.
-/
namespace Verif.Model

/-- What `%X` of `sprintf` (C library) writes for one digit. -/
def upperHexDigit (d : Nat) : Byte := if d < 10 then UInt8.ofNat (48 + d) else UInt8.ofNat (55 + d)

/-- `sprintf (buffer + off, …)` (C library) that writes `text` and a NUL; `none`: outside the buffer. -/
def sprintfAt (buffer : List Byte) (off : Nat) (text : List Byte) : Option (List Byte) :=
  if off + text.length + 1 ≤ buffer.length then some (buffer.take off ++ (text ++ 0 :: buffer.drop (off + text.length + 1))) else none

/-- The loop of `__vortex_tls_translateToOctal` (tls/vortex_tls.c:2214-2224), from `iterator` on; `rest`: the octets from there. -/
def octalLoop (len : Nat) : List Byte → Nat → List Byte → Option (List Byte)
  | [], _, result => some result
  | b :: rest, iterator, result =>
    match sprintfAt result (u32 (iterator * 3))
        (upperHexDigit (b.toNat / 16) :: upperHexDigit (b.toNat % 16) :: (if u32 (iterator + 1) ≠ len then [58] else [])) with
    | none => none
    | some result => octalLoop len rest (u32 (iterator + 1)) result

/-- `__vortex_tls_translateToOctal` (tls/vortex_tls.c:2203-2226): the string in the buffer it allocates (zeroed); `none`: it writes outside. -/
def translateToOctal (digest : List Byte) : Option (List Byte) :=
  (octalLoop digest.length digest 0 (List.replicate (u32 (digest.length * 3 + 1)) 0)).map (fun r => r.takeWhile (fun c => decide (c ≠ 0)))

/-- `VortexDigestMethod` -/
inductive DigestMethod
  | sha1
  | md5
  /-- `VORTEX_DIGEST_NUM` -/
  | num
  deriving DecidableEq, Repr

/-- How a call ends: `kept` is the number of references to objects of OpenSSL it took and did not release. -/
inductive DigestEnd
  | crash
  | returned (text : Option (List Byte)) (kept : Nat)
  deriving DecidableEq, Repr

/-- The result of a call from the octets of the digest. -/
def DigestEnd.ofOctets (digest : List Byte) (kept : Nat) : DigestEnd :=
  match translateToOctal digest with
  | none => .crash
  | some t => .returned (some t) kept

/-- `vortex_tls_get_digest_sized` (tls/vortex_tls.c:2700-2756); `content`: what can be read at the pointer. -/
def getDigestSized (H : DigestMethod → List Byte → List Byte) (m : DigestMethod) (content : Option (List Byte)) (size : Int) : DigestEnd :=
  match content with
  | none => .returned none 0
  | some c =>
    match m with
    | .num => .returned none 0
    | m =>
      -- EVP_DigestUpdate takes a size_t
      if c.length < u64 size then .crash else .ofOctets (H m (c.take (u64 size))) 0

/-- `vortex_tls_get_digest` (tls/vortex_tls.c:2676-2681): `strlen` reads the pointer; its result is passed as an int. -/
def getDigest (H : DigestMethod → List Byte → List Byte) (m : DigestMethod) (string : Option (List Byte)) : DigestEnd :=
  match string with
  | none => .crash
  | some s => getDigestSized H m (some (s ++ [0])) (i32 s.length)

/-- `vortex_tls_get_peer_ssl_digest` (tls/vortex_tls.c:2535-2578); `ssl`: the connection has a TLS object; `cert`: the certificate of the peer,
whose reference count `SSL_get_peer_certificate` increases; `X`: `X509_digest`, `none` if it fails. -/
def getPeerDigest (X : DigestMethod → List Byte → Option (List Byte)) (m : DigestMethod) (ssl : Bool) (cert : Option (List Byte)) : DigestEnd :=
  if !ssl then .returned none 0
  else
    match cert with
    | none => .returned none 0
    | some c =>
      match m with
      | .num => .returned none 1
      | m =>
        match X m c with
        | none => .returned none 1
        | some d => .ofOctets d 1

/-- `vortex_tls_get_ssl_digest` (tls/vortex_tls.c:2592-2664); `file`: the certificate in the file, if there is one. -/
def getFileDigest (X : DigestMethod → List Byte → Option (List Byte)) (m : DigestMethod) (file : Option (List Byte)) : DigestEnd :=
  match m with
  | .num => .returned none 0
  | m =>
    match file with
    | none => .returned none 0
    | some c =>
      match X m c with
      | none => .returned none 0
      | some d => .ofOctets d 0

end Verif.Model
