import Verif.ClientMemModel

/-!
# The client's sockets and TLS connections

Which sockets, libcurl handles, `BIO`s and `SSL` objects the client library opens, uses and closes
during its operations, including those of BRSKI, and what the proxy does with its upstream
connections: `est_client_proxy.c`, `est_client_connect`, `est_client_disconnect` and their callers.

The program monad of `ClientMemModel` is used: a resource is a live block, opening one may fail
(`Nat → Bool`), closing or using one that is not open is undefined.  In C, closing a descriptor twice
or writing to a closed one does harm as soon as the number has been given to another file.

Not modelled: the memory of the requests and answers (`ClientMemModel`), the saved TLS session
(there too), and which addresses and certificates are accepted (`TlsModel`).
-/
namespace Verif.Sock
open Verif.ClientMem (Mem alloc free use)

/-- `tcw_err_t`, as far as callers tell values apart.  `est_client_proxy.h` lines 27-37. -/
inductive TErr | ok | resolv | failed
deriving DecidableEq, Repr

/-- `tcw_sock_t`: whether a proxy is used, `sock_fd` (`none` for `SOCK_INVALID`), `curl_handle`.
`est_client_proxy.h` lines 48-54. -/
structure Tcw where
  proxied : Bool
  fd : Option Nat
  curl : Option Nat
deriving DecidableEq, Repr

/-- Of the context: `tcw_sock` and `tcw_sock_connected`.  `est_locl.h` lines 507-508. -/
structure Ctx where
  sock : Tcw
  connected : Bool
deriving DecidableEq, Repr

/-- A context that has not been used, `est_client.c` line 4490 (`calloc`). -/
def Ctx.fresh : Ctx := ⟨⟨false, none, none⟩, false⟩

/-- The loop of `tcw_direct_connect`, `est_client_proxy.c` lines 190-218; for each address,
whether `connect` succeeds. -/
def directLoop : TErr → List Bool → Mem (TErr × Option Nat)
  | r, [] => pure (r, none)
  | _, c :: l => do
    match ← alloc with
    | none => directLoop .failed l
    | some fd =>
      if c then pure (.ok, some fd)
      else
        free (some fd)
        directLoop .failed l

/-- What the network does when a connection is opened: the addresses found (at least one, or
`getaddrinfo` fails), or how far libcurl comes: the options are set, the proxy is reached or a name
is not resolved, and the socket is usable.  The cases of `est_client_proxy.c` lines 144-558. -/
structure Net where
  addrs : Option (Bool × List Bool)
  options : Bool
  perform : TErr
  usable : Bool
deriving DecidableEq, Repr

/-- `tcw_direct_connect`, `est_client_proxy.c` lines 144-228. -/
def directConnect (t : Tcw) (n : Net) : Mem (TErr × Tcw) :=
  match n.addrs with
  | none => pure (.resolv, t)
  | some (a, l) => do
    let (e, fd) ← directLoop .ok (a :: l)
    pure (e, { t with fd := fd })

/-- `tcw_curl_close`, `est_client_proxy.c` lines 231-242.  `curl_easy_cleanup` closes the
socket. -/
def curlClose (t : Tcw) : Mem Tcw := do
  free t.curl
  pure { t with curl := none, fd := none }

/-- `tcw_curl_connect`, `est_client_proxy.c` lines 299-558.  The socket belongs to the libcurl
handle; it has the handle's number here. -/
def curlConnect (t : Tcw) (n : Net) : Mem (TErr × Tcw) := do
  match ← alloc with
  | none =>
    let t ← curlClose { t with curl := none }
    pure (.failed, t)
  | some h =>
    let t := { t with curl := some h }
    if !n.options then
      let t ← curlClose t
      pure (.failed, t)
    else match n.perform with
      | .ok =>
        let t := { t with fd := some h }
        if n.usable then pure (.ok, t)
        else
          let t ← curlClose t
          pure (.failed, t)
      | e =>
        let t ← curlClose t
        pure (e, t)

/-- `tcw_connect`, `est_client_proxy.c` lines 564-597, built with libcurl.  The structure is
cleared first, whatever it held. -/
def tcwConnect (proxied : Bool) (n : Net) : Mem (TErr × Tcw) :=
  let t : Tcw := ⟨proxied, none, none⟩
  if proxied then curlConnect t n else directConnect t n

/-- `tcw_direct_close`, `est_client_proxy.c` lines 114-138.  `fd_is_valid` (104-112) finds that -1 is
no descriptor.  A `close` that reports an error closes the descriptor all the same. -/
def directClose (t : Tcw) : Mem Tcw := do
  free t.fd
  pure { t with fd := none }

/-- `tcw_close`, `est_client_proxy.c` lines 599-612. -/
def tcwClose (t : Tcw) : Mem Tcw :=
  if t.proxied then curlClose t else directClose t

/-- An `SSL` object with its `BIO`, the descriptor the latter writes to, and whether the handshake
was finished.  Made in `est_client.c` lines 2846-2889. -/
structure Ssl where
  obj : Nat
  bio : Nat
  fd : Nat
  up : Bool
deriving DecidableEq, Repr

/-- `SSL_shutdown`: sends a message, but not before the handshake is finished.  Called in
`est_client.c` line 2941 and on the error paths, e.g. lines 3222-3225. -/
def shutdown (s : Ssl) : Mem Unit := do
  use (some s.obj)
  if s.up then use (some s.fd) else pure ()

/-- `SSL_free`, which releases the `BIO` but, with `BIO_NOCLOSE` (`est_client.c` line 2846), does not
close the descriptor.  Called in `est_client.c` lines 2941-2943. -/
def sslFree (s : Ssl) : Mem Unit := do
  free (some s.obj)
  free (some s.bio)

/-- The end of most functions: `if (ssl) { SSL_shutdown(ssl); SSL_free(ssl); }`, e.g. `est_client.c`
lines 3221-3225. -/
def drop : Option Ssl → Mem Unit
  | none => pure ()
  | some s => do
    shutdown s
    sslFree s

/-- `est_client_disconnect`, `est_client.c` lines 2916-2950. -/
def disconnect (c : Ctx) : Option Ssl → Mem Ctx
  | none => pure c
  | some s => do
    shutdown s
    sslFree s
    if c.connected then
      let t ← tcwClose c.sock
      pure ⟨t, false⟩
    else pure c

/-- How opening a connection goes: through a proxy or not, the network, `setsockopt`, the
handshake, the server's name.  The cases of `est_client.c` lines 2768-2906. -/
structure Conn where
  proxied : Bool
  net : Net
  keepalive : Bool
  shake : Bool
  nameOk : Bool
deriving DecidableEq, Repr

/-- `est_client_connect` from `setsockopt` on, `est_client.c` lines 2836-2906, with the socket that
`tcw_connect` has given. -/
def secure (c : Ctx) (w : Conn) (fd : Nat) : Mem (EstErr × Ctx × Option Ssl) := do
  use (some fd)
  if !w.keepalive then
    let t ← tcwClose c.sock
    pure (.ipConnect, { c with sock := t }, none)
  else
    match ← alloc with
    | none =>
      let t ← tcwClose c.sock
      pure (.ipConnect, { c with sock := t }, none)
    | some bio =>
      match ← alloc with
      | none =>
        free (some bio)
        let t ← tcwClose c.sock
        pure (.sslNew, { c with sock := t }, none)
      | some s =>
        use (some fd)
        if !w.shake then
          let t ← tcwClose c.sock
          pure (.sslConnect, { c with sock := t }, some ⟨s, bio, fd, false⟩)
        else
          let c := { c with connected := true }
          if w.nameOk then pure (.none, c, some ⟨s, bio, fd, true⟩)
          else
            let c ← disconnect c (some ⟨s, bio, fd, true⟩)
            pure (.fqdnMismatch, c, none)

/-- `est_client_connect`, `est_client.c` lines 2768-2906: the error, the context and what is left in
`*ssl`. -/
def connect (c : Ctx) (w : Conn) : Mem (EstErr × Ctx × Option Ssl) := do
  let (e, t) ← tcwConnect w.proxied w.net
  let c := { c with sock := t }
  match e with
  | .resolv => pure (.ipGetaddr, c, none)
  | .failed => pure (.ipConnect, c, none)
  | .ok =>
    match t.fd with
    | none => fun _ _ => none
    | some fd => secure c w fd

/-- Sending a request and reading the answer with `SSL_write` and `SSL_read`.  E.g. `est_client.c`
lines 1660-1700 and `est_client_http.c` lines 1504-1540. -/
def talk (s : Option Ssl) : Mem Unit :=
  match s with
  | none => use none
  | some s => do
    use (some s.obj)
    use (some s.bio)
    use (some s.fd)

/-- A connection and what the request sent over it leads to.  Arguments of the functions of
`est_client.c` lines 3152-6568. -/
structure Try where
  conn : Conn
  res : EstErr
deriving DecidableEq, Repr

/-- `est_client_get_cacerts` (`est_client.c` lines 3928-3963) and `est_client_get_csrattrs` (lines
4045-4150). -/
def single (c : Ctx) (x : Try) : Mem (EstErr × Ctx) := do
  let (e, c, ssl) ← connect c x.conn
  match e with
  | .none =>
    talk ssl
    let c ← disconnect c ssl
    pure (x.res, c)
  | e =>
    drop ssl
    pure (e, c)

/-- What a function does after `EST_ERR_AUTH_FAIL`: nothing, refuse digest authentication in FIPS
mode, or try again.  `est_client.c` lines 3176-3192. -/
inductive Then | stop | refuse | again
deriving DecidableEq, Repr

/-- `est_client_enroll_internal` (`est_client.c` lines 3152-3226), `est_client_reenroll` (3577-3632),
`est_client_enroll_csr_internal` (3640-3712), `est_client_brski_send_voucher_status` (6344-6398) and
`est_client_brski_send_enroll_status` (6513-6566). -/
def twice (c : Ctx) (x y : Try) (f : Then) : Mem (EstErr × Ctx) := do
  let (e, c, ssl) ← connect c x.conn
  match e with
  | .none =>
    talk ssl
    let c ← disconnect c ssl
    if x.res = .authFail then
      match f with
      | .stop => pure (x.res, c)
      | .refuse => pure (.badMode, c)
      | .again =>
        let (e, c, ssl) ← connect c y.conn
        match e with
        | .none =>
          talk ssl
          let c ← disconnect c ssl
          pure (y.res, c)
        | e =>
          drop ssl
          pure (e, c)
    else pure (x.res, c)
  | e =>
    drop ssl
    pure (e, c)

/-- What `est_client_brski_send_get_voucher` needs besides the network: `RAND_bytes`, `time`, memory
for the certificate, and the server's certificate from the first and the second connection.
`est_client.c` lines 5817-5853 and 5892-5896. -/
structure Needs where
  rand : Bool
  time : Bool
  cert : Bool
  cert2 : Bool
deriving DecidableEq, Repr

/-- `est_client_brski_send_get_voucher` with the first connection open, `est_client.c` lines
5817-5940.  `res` of the last request stands for the result of the voucher check, too.  The early
returns leave the connection as it is, and the error after the second connection releases the `SSL`
object only. -/
def ask (c : Ctx) (x y : Try) (f : Then) (n : Needs) (ssl : Option Ssl) : Mem (EstErr × Ctx) := do
  if !n.rand then pure (.syscall, c)
  else if !n.time then pure (.syscall, c)
  else
    match ← alloc with
    | none => pure (.malloc, c)
    | some buf =>
      if !n.cert then
        free (some buf)
        pure (.loadCacerts, c)
      else
        talk ssl
        let c ← disconnect c ssl
        if x.res = .authFail then
          match f with
          | .stop =>
            free (some buf)
            pure (x.res, c)
          | .refuse =>
            free (some buf)
            pure (.badMode, c)
          | .again =>
            let (e, c, ssl) ← connect c y.conn
            match e with
            | .none =>
              if !n.cert2 then
                drop ssl
                free (some buf)
                pure (.loadCacerts, c)
              else
                talk ssl
                let c ← disconnect c ssl
                free (some buf)
                pure (y.res, c)
            | e =>
              drop ssl
              free (some buf)
              pure (e, c)
        else
          free (some buf)
          pure (x.res, c)

/-- `est_client_brski_send_get_voucher`, `est_client.c` lines 5781-5940. -/
def sendGetVoucher (c : Ctx) (x y : Try) (f : Then) (n : Needs) : Mem (EstErr × Ctx) := do
  let (e, c, ssl) ← connect c x.conn
  match e with
  | .none => ask c x y f n ssl
  | e =>
    drop ssl
    pure (e, c)

/-- One round of a voucher request: arguments of `est_client.c` lines 5781-5940. -/
structure Round where
  x : Try
  y : Try
  f : Then
  n : Needs
deriving DecidableEq, Repr

/-- `est_client_brski_get_voucher` after its checks, `est_client.c` lines 6025-6060: a second round
when the registrar says so. -/
def getVoucher (c : Ctx) (r r' : Round) : Mem (EstErr × Ctx) := do
  let (e, c) ← sendGetVoucher c r.x r.y r.f r.n
  if e = .caEnrollRetry then sendGetVoucher c r'.x r'.y r'.f r'.n
  else pure (e, c)

/-- `est_proxy_send_enroll_request` and `est_proxy_send_keygen_request`, `est_proxy.c` lines
453-483 and 492-525: what is left in `ssl_client` when `est_client_connect` fails is forgotten. -/
def forward (c : Ctx) (x : Try) : Mem (EstErr × Ctx) := do
  let (e, c, ssl) ← connect c x.conn
  match e with
  | .none =>
    talk ssl
    let c ← disconnect c ssl
    pure (x.res, c)
  | e => pure (e, c)

/-- The operations on one client context that talk to a server: those of a client, `est_client.c`
lines 3152-6568, and those of a proxy, `est_proxy.c` lines 380-525. -/
inductive Op
  | single (x : Try)
  | twice (x y : Try) (f : Then)
  | voucher (r r' : Round)
  | forward (x : Try)
deriving DecidableEq, Repr

/-- One operation.  `est_client.c` lines 3152-6568 and `est_proxy.c` lines 380-525. -/
def step (c : Ctx) : Op → Mem (EstErr × Ctx)
  | .single x => single c x
  | .twice x y f => twice c x y f
  | .voucher r r' => getVoucher c r r'
  | .forward x => forward c x

/-- Operations one after the other on a context, and what they return.  An application's calls of
the functions of `est_client.c` lines 3152-6568. -/
def run (c : Ctx) : List Op → Mem (List EstErr × Ctx)
  | [] => pure ([], c)
  | o :: os => do
    let (e, c) ← step c o
    let (es, c) ← run c os
    pure (e :: es, c)

end Verif.Sock
