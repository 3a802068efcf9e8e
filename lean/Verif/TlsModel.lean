import Verif.HostModel
import Verif.EstErr
import Verif.ClientRespModel

/-!
# Model of the connection set-up and of the certificate callbacks

Sources: `/repo/src/est/est_client.c` lines 657-774 (`cert_verify_cb`), 832-838, 2768-2908
(`est_client_connect`); `/repo/src/est/est_ossl_util.c` lines 90-215
(`est_get_subj_fld_from_cert`, `ossl_verify_cb`); `/repo/src/est/est_client_proxy.c` (POSIX
build, with and without libcurl).

OpenSSL's chain building is a parameter: the calls of the verification callback it makes during
a handshake.  OpenSSL gives up the chain when a callback returns 0 and goes on otherwise; a
handshake with a chain given up fails unless the verification mode is `SSL_VERIFY_NONE` (0).
-/
namespace Verif.Tls
open Verif.Host (Inet San checkFqdn Check)
open Verif.ClientResp (decimal)

/-! ## The subject field -/

/-- A buffer of `cap` bytes after a write, or a write behind its end.  The outcome of
`est_ossl_util.c` lines 100-152. -/
inductive Buf
  | overrun
  | bytes (b : List Nat)
deriving DecidableEq, Repr

/-- `b[i] = 0`.  `est_ossl_util.c` lines 100-152. -/
def putZero (b : List Nat) (i : Nat) : Buf :=
  if i < b.length then .bytes (b.set i 0) else .overrun

/-- `est_get_subj_fld_from_cert`, `est_ossl_util.c` lines 100-152, into `old` with the argument
`len`; `text` is what `X509_NAME_print_ex` writes.  The allocations succeed. -/
def subjFld (old : List Nat) (len : Nat) (text : List Nat) : Buf :=
  let k := if text.length > len then len else text.length
  if old.length < k then .overrun
  else
    let b := text.take k ++ old.drop k
    if text.length < len then putZero b text.length else putZero b len

/-- The C string in a buffer.  The text printed by `est_ossl_util.c` lines 157-215. -/
def cstr (b : List Nat) : List Nat := b.takeWhile (· ≠ 0)

/-! ## The callbacks -/

/-- `X509_V_ERR_UNABLE_TO_GET_CRL`, `X509_V_ERR_SELF_SIGNED_CERT_IN_CHAIN`,
`X509_V_ERR_CERT_UNTRUSTED` of OpenSSL's `x509_vfy.h`.  Looked for at `est_client.c`
lines 712-731 and `est_ossl_util.c` line 178. -/
def errNoCrl : Nat := 3
/-- Looked for at `est_client.c` line 713. -/
def errSelfSigned : Nat := 19
/-- Looked for at `est_client.c` line 712. -/
def errUntrusted : Nat := 27

/-- One call of the verification callback: OpenSSL's status, the error, the certificate.
The arguments of `est_client.c` lines 657-665 and `est_ossl_util.c` lines 157-165. -/
structure Note where
  ok : Int
  err : Nat
  cert : Nat
deriving DecidableEq, Repr

/-- `cert_verify_cb`, `est_client.c` lines 657-774.  `known`: the session leads to the EST context
(the early returns of lines 667-695 leave the status alone).  `app` is
`manual_cert_verify_cb`. -/
def certVerifyCb (known : Bool) (app : Option (Nat → Nat → Int)) (n : Note) : Int :=
  if !known then n.ok
  else if n.ok = 0 then
    if n.err = errUntrusted ∨ n.err = errSelfSigned ∨ n.err = errNoCrl then
      match app with
      | some f => f n.cert n.err
      | none => if n.err = errNoCrl then 1 else n.ok
    else n.ok
  else n.ok

/-- `ossl_verify_cb`, `est_ossl_util.c` lines 157-215.  `subj` is the text of the subject of the
current certificate, if there is one, which is copied into 255 allocated bytes
(`EST_MAX_CERT_SUBJ_LEN`); `none` if that overruns. -/
def osslVerifyCb (subj : Option (List Nat)) (n : Note) : Option Int :=
  if n.ok = 0 then
    match subj.map (subjFld (List.replicate 255 0) 255) with
    | some .overrun => none
    | _ => some (if n.err = errNoCrl then 1 else 0)
  else some n.ok

/-- What becomes of a chain.  The outcome of SSL_connect, called in `est_client.c` lines
2768-2908. -/
inductive Chain
  | undef
  | givenUp
  | fine
deriving DecidableEq, Repr

/-- The calls of the callback in order.  OpenSSL calls the functions of `est_client.c`
lines 657-774 and `est_ossl_util.c` lines 157-215. -/
def runChain (f : Note → Option Int) : List Note → Chain
  | [] => .fine
  | n :: l =>
    match f n with
    | none => .undef
    | some r => if r = 0 then .givenUp else runChain f l

/-! ## TCP -/

/-- `tcw_err_t`.  `est_client_proxy.h` lines 27-37. -/
inductive Tcw
  | ok | resolv | connect | socket | alloc | arg | other | fcntl
deriving DecidableEq, Repr

/-- What `socket` and `connect` do with one address of the list.  `est_client_proxy.c`
lines 190-218. -/
structure Addr where
  sock : Option Nat
  conn : Bool
deriving DecidableEq, Repr

/-- The loop of `tcw_direct_connect`, `est_client_proxy.c` lines 190-218: the code and the file
descriptor, `none` for a negative one. -/
def directLoop : Tcw × Option Nat → List Addr → Tcw × Option Nat
  | st, [] => st
  | _, a :: l =>
    match a.sock with
    | none => directLoop (.socket, none) l
    | some fd => if a.conn then (.ok, some fd) else directLoop (.connect, none) l

/-- `tcw_direct_connect`, `est_client_proxy.c` lines 144-228.  `addrs` is the result of `getaddrinfo`, which never
succeeds with an empty list (`fd` would be used uninitialised). -/
def direct (addrs : Option (List Addr)) : Tcw × Option Nat :=
  match addrs with
  | none => (.resolv, none)
  | some l => directLoop (.ok, none) l

/-- The URL `tcw_curl_connect` gives to libcurl, `est_client_proxy.c` lines 335-375.  The colon is looked for in `url`,
which was just zeroed, not in `host`. -/
def curlUrl (host : List Nat) (port : Nat) : List Nat :=
  let url : List Nat := []
  if 58 ∈ url then [104, 116, 116, 112, 58, 47, 47, 91] ++ (host ++ ([93, 58] ++ decimal (port % 65536)))
  else [104, 116, 116, 112, 58, 47, 47] ++ (host ++ ([58] ++ decimal (port % 65536)))

/-- What libcurl does: no handle, an option refused, `curl_easy_perform` (`est_client_proxy.c` lines 503-512), the
socket. -/
inductive Curl
  | noHandle
  | badOption
  | noProxy
  | noHost
  | failed
  | noSocket
  | noBlocking
  | up (fd : Nat)
deriving DecidableEq, Repr

/-- `tcw_curl_connect`, `est_client_proxy.c` lines 299-558. -/
def curlConnect : Curl → Tcw × Option Nat
  | .noHandle => (.alloc, none)
  | .badOption => (.other, none)
  | .noProxy => (.resolv, none)
  | .noHost => (.resolv, none)
  | .failed => (.connect, none)
  | .noSocket => (.other, none)
  | .noBlocking => (.fcntl, none)
  | .up fd => (.ok, some fd)

/-- Of the context: `proxy_proto` (`EST_CLIENT_PROXY_NONE` is -1), `proxy_username`,
`proxy_password`, `proxy_auth`.  `est_locl.h` lines 500-506, read by `est_client.c`
lines 2799-2814. -/
structure Proxy where
  proto : Int
  user : List Nat
  pwd : List Nat
  auth : Nat

/-- `tcw_connect`, `est_client_proxy.c` lines 564-597; `libcurl` tells whether it is built in. -/
def tcwConnect (libcurl : Bool) (proto : Int) (curl : List Nat → Curl) (addrs : Option (List Addr))
    (host : List Nat) (port : Nat) : Tcw × Option Nat :=
  if proto ≠ -1 then
    if libcurl then curlConnect (curl (curlUrl host port)) else (.arg, none)
  else direct addrs

/-- The credentials given to the proxy: `est_client.c` lines 2799-2814 and
`est_client_proxy.c` lines 447-486: user, password, the methods basic and NTLM of
`CURLOPT_PROXYAUTH`; lines 439 and 472 ask for basic alone if no method is named.  The bits are
`EST_CLIENT_PROXY_AUTH_BASIC` 1 and `EST_CLIENT_PROXY_AUTH_NTLM` 8. -/
def proxyCred (p : Proxy) : Option (List Nat × List Nat × Bool × Bool) :=
  if p.user ≠ [] ∧ p.pwd ≠ [] ∧ p.auth ≠ 0 then
    let basic := p.auth % 2 == 1
    let ntlm := p.auth / 8 % 2 == 1
    some (p.user, p.pwd, if basic || ntlm then (basic, ntlm) else (true, false))
  else none

/-! ## `est_client_connect` -/

/-- The part of the context used.  Read by `est_client.c` lines 2768-2908. -/
structure Ctx where
  host : List Nat
  port : Nat
  useProxy : Bool
  proxy : Proxy
  srp : Bool
  /-- the mode given to `SSL_CTX_set_verify` -/
  verify : Nat
  /-- whether `cert_verify_cb` was given to it; otherwise the store's `ossl_verify_cb` is in force -/
  verifyCb : Bool
  manual : Option (Nat → Nat → Int)

/-- What the outside does in one attempt.  `notes` are the calls of the callback; they are none if
the session is resumed.  `subj` gives the subject's text of a certificate.  `other`: everything
else in the handshake succeeds.  The calls of `est_client.c` lines 2768-2908. -/
structure World where
  libcurl : Bool
  curl : List Nat → Curl
  addrs : Option (List Addr)
  keepalive : Bool
  bio : Bool
  sslNew : Bool
  known : Bool
  notes : List Note
  subj : Nat → Option (List Nat)
  other : Bool
  cert : Option (List San × List (Option (List Nat)))

/-- Result: undefined behaviour, an error, or a connection.  The outcome of
`est_client.c` lines 2768-2908. -/
inductive Res
  | undef
  | err (e : EstErr)
  | up
deriving DecidableEq, Repr

/-- The callback in force.  `est_client.c` lines 832-838. -/
def callback (c : Ctx) (w : World) : Note → Option Int :=
  if c.verifyCb then fun n => some (certVerifyCb w.known c.manual n)
  else fun n => osslVerifyCb (w.subj n.cert) n

/-- `SSL_connect`: `none` is undefined behaviour.  Called in `est_client.c` lines
2768-2908. -/
def handshake (c : Ctx) (w : World) : Option Bool :=
  match runChain (callback c w) w.notes with
  | .undef => none
  | .givenUp => some (c.verify == 0 && w.other)
  | .fine => some w.other

/-- `est_client_connect`, `est_client.c` lines 2768-2908. -/
def connect (I : Inet) (c : Ctx) (w : World) : Res :=
  match (tcwConnect w.libcurl (if c.useProxy then c.proxy.proto else -1) w.curl w.addrs c.host c.port).1 with
  | .resolv => .err .ipGetaddr
  | .ok =>
    if !w.keepalive then .err .ipConnect
    else if !w.bio then .err .ipConnect
    else if !w.sslNew then .err .sslNew
    else
      match handshake c w with
      | none => .undef
      | some false => .err .sslConnect
      | some true =>
        match checkFqdn I c.srp c.host w.cert with
        | .ub => .undef
        | .mismatch => .err .fqdnMismatch
        | .ok => .up
  | _ => .err .ipConnect

end Verif.Tls
