import Verif.EstErr

/-!
# Model of starting and stopping a server, and of its TLS settings

Source: `/repo/src/est/est_server_http.c` lines 1328-1492 (`set_ssl_option`), 1602-1797
(`est_server_coap_handle_request`, `est_server_handle_request`), 1800-1853 (`free_context`,
`mg_stop`, `mg_start`); `est_server.c` lines 3097-3150 (`est_server_start`, `est_server_stop`),
3837-3853 (`est_server_enable_srp`), 3971-4018 (`est_server_set_ecdhe_curve`,
`est_server_set_dh_parms`); `est_proxy.c` lines 2003-2046 (`est_proxy_start`, `est_proxy_stop`);
`est.c` lines 743-835 (`est_destroy`), 1187-1213 (`est_enable_crl`); `est_server_coap.c` lines
2648-2670 (`est_coap_verify_sni_callback`), 2716-2774 (`est_server_coap_set_pki_identity`),
3205-3291 (`est_server_coap_init_start`); `est_locl.h` lines 84-123.

The library is one built with a current OpenSSL, that is without `HAVE_OLD_OPENSSL`, and with
libcoap.  Contexts are not NULL.  OpenSSL's and libcoap's results are parameters; a failing
`DHparams_dup` or `X509_VERIFY_PARAM_new`, which the code does not look at, is left out.
-/
namespace Verif.Life

/-- A certificate is its encoding.  The objects loaded by `est.c` lines 655-680. -/
abbrev Der := List Nat

/-! ## Settings -/

/-- `EST_CIPHER_LIST`, split at the colons.  `est_locl.h` lines 94-120. -/
def cipherList : List (List Nat) :=
  [[69, 67, 68, 72, 69, 45, 69, 67, 68, 83, 65, 45, 65, 69, 83, 49, 50, 56, 45, 71, 67, 77, 45, 83, 72, 65, 50, 53, 54],
   [69, 67, 68, 72, 69, 45, 82, 83, 65, 45, 65, 69, 83, 49, 50, 56, 45, 71, 67, 77, 45, 83, 72, 65, 50, 53, 54],
   [65, 69, 83, 49, 50, 56, 45, 71, 67, 77, 45, 83, 72, 65, 50, 53, 54],
   [69, 67, 68, 72, 69, 45, 69, 67, 68, 83, 65, 45, 67, 72, 65, 67, 72, 65, 50, 48, 45, 80, 79, 76, 89, 49, 51, 48, 53],
   [69, 67, 68, 72, 69, 45, 82, 83, 65, 45, 67, 72, 65, 67, 72, 65, 50, 48, 45, 80, 79, 76, 89, 49, 51, 48, 53],
   [69, 67, 68, 72, 69, 45, 69, 67, 68, 83, 65, 45, 65, 69, 83, 49, 50, 56, 45, 83, 72, 65, 50, 53, 54],
   [69, 67, 68, 72, 69, 45, 69, 67, 68, 83, 65, 45, 65, 69, 83, 49, 50, 56, 45, 83, 72, 65],
   [69, 67, 68, 72, 69, 45, 82, 83, 65, 45, 65, 69, 83, 49, 50, 56, 45, 83, 72, 65],
   [69, 67, 68, 72, 69, 45, 82, 83, 65, 45, 65, 69, 83, 49, 50, 56, 45, 83, 72, 65, 50, 53, 54],
   [65, 69, 83, 49, 50, 56, 45, 83, 72, 65, 50, 53, 54],
   [65, 69, 83, 49, 50, 56, 45, 83, 72, 65],
   [69, 67, 68, 72, 69, 45, 69, 67, 68, 83, 65, 45, 65, 69, 83, 50, 53, 54, 45, 71, 67, 77, 45, 83, 72, 65, 51, 56, 52],
   [69, 67, 68, 72, 69, 45, 82, 83, 65, 45, 65, 69, 83, 50, 53, 54, 45, 71, 67, 77, 45, 83, 72, 65, 51, 56, 52],
   [65, 69, 83, 50, 53, 54, 45, 71, 67, 77, 45, 83, 72, 65, 51, 56, 52],
   [69, 67, 68, 72, 69, 45, 69, 67, 68, 83, 65, 45, 65, 69, 83, 50, 53, 54, 45, 83, 72, 65, 51, 56, 52],
   [69, 67, 68, 72, 69, 45, 82, 83, 65, 45, 65, 69, 83, 50, 53, 54, 45, 83, 72, 65, 51, 56, 52],
   [65, 69, 83, 50, 53, 54, 45, 83, 72, 65, 50, 53, 54],
   [68, 72, 69, 45, 82, 83, 65, 45, 65, 69, 83, 49, 50, 56, 45, 71, 67, 77, 45, 83, 72, 65, 50, 53, 54],
   [68, 72, 69, 45, 82, 83, 65, 45, 65, 69, 83, 49, 50, 56, 45, 83, 72, 65],
   [68, 72, 69, 45, 82, 83, 65, 45, 65, 69, 83, 49, 50, 56, 45, 83, 72, 65, 50, 53, 54],
   [68, 72, 69, 45, 82, 83, 65, 45, 65, 69, 83, 50, 53, 54, 45, 71, 67, 77, 45, 83, 72, 65, 51, 56, 52],
   [68, 72, 69, 45, 68, 83, 83, 45, 65, 69, 83, 50, 53, 54, 45, 71, 67, 77, 45, 83, 72, 65, 51, 56, 52],
   [68, 72, 69, 45, 82, 83, 65, 45, 65, 69, 83, 50, 53, 54, 45, 83, 72, 65, 50, 53, 54],
   [68, 72, 69, 45, 68, 83, 83, 45, 65, 69, 83, 49, 50, 56, 45, 71, 67, 77, 45, 83, 72, 65, 50, 53, 54],
   [68, 72, 69, 45, 68, 83, 83, 45, 65, 69, 83, 49, 50, 56, 45, 83, 72, 65],
   [68, 72, 69, 45, 68, 83, 83, 45, 65, 69, 83, 49, 50, 56, 45, 83, 72, 65, 50, 53, 54],
   [68, 72, 69, 45, 68, 83, 83, 45, 65, 69, 83, 50, 53, 54, 45, 83, 72, 65, 50, 53, 54]]

/-- `EST_CIPHER_LIST_SRP_SERVER`: `SRP` stands for all suites of that kind.  `est_locl.h`
line 121. -/
def cipherListSrp : List (List Nat) := cipherList ++ [[83, 82, 80]]

/-- What is set in an `SSL_CTX`: versions (11 is TLS 1.1) as by the options and the maximum
version, verification of peers (`SSL_VERIFY_PEER`, without
`SSL_VERIFY_FAIL_IF_NO_PEER_CERT`), the trusted certificates (`none` is a NULL pointer), CRL checks,
the depth of chains, the curve, the Diffie-Hellman parameters, the suites, session tickets.
`est_server_http.c` lines 1328-1492. -/
structure Settings where
  minVer : Nat
  maxVer : Nat
  verify : Bool
  needCert : Bool
  store : Option (List Der)
  crl : Bool
  depth : Nat
  curve : Int
  dh : Option Nat
  suites : List (List Nat)
  tickets : Bool
deriving DecidableEq, Repr

/-- `mg_ctx`: NULL, a service with an `SSL_CTX`, or a pointer to memory that was released.
`est_locl.h` lines 389-578, assigned at `est_server.c` line 3107. -/
inductive Mg
  | null
  | live (t : Settings)
  | stale
deriving DecidableEq, Repr

/-- The fields of the context of a server or a proxy that are used here; `coap` is
`transport_mode`, `coapCtx` says whether `coap_ctx` is not NULL.  Four fields are not in the code:
`dead` says that the context was released, and `lostMg`, `lostDh` and `lostCoap` count the objects
that can no longer be reached.  `est_locl.h` lines 389-578. -/
structure Ctx where
  proxy : Bool
  store : Option (List Der)
  dh : Option Nat
  nid : Int
  crl : Bool
  srp : Bool
  coap : Bool
  mg : Mg
  coapCtx : Bool
  dead : Bool
  lostMg : Nat
  lostDh : Nat
  lostCoap : Nat
deriving DecidableEq, Repr

/-- The context after `est_server_init` (`est_server.c` lines 3194-3328) or `est_proxy_init`
(`est_proxy.c` lines 2100-2260) with these trusted certificates. -/
def Ctx.init (proxy : Bool) (store : List Der) : Ctx :=
  { proxy := proxy, store := some store, dh := none, nid := 0, crl := false, srp := false,
    coap := false, mg := .null, coapCtx := false, dead := false, lostMg := 0, lostDh := 0,
    lostCoap := 0 }

/-- What the system and OpenSSL do while the service is started: `calloc`, `SSL_CTX_new`,
`EC_KEY_new_by_curve_name`, `SSL_CTX_set_cipher_list`, `SSL_CTX_use_certificate`,
`SSL_CTX_use_PrivateKey`.  The calls of `est_server_http.c` lines 1328-1492 and 1823-1853. -/
structure StartLib where
  mem : Bool
  sslCtx : Bool
  curve : Int → Bool
  ciphers : Bool
  useCert : Bool
  useKey : Bool

/-- `NID_X9_62_prime256v1`, the curve used by default.  `est_server_http.c` line 1408. -/
def prime256v1 : Int := 415

/-- The settings made by `set_ssl_option` if it gets to its end, `est_server_http.c`
lines 1328-1492. -/
def settingsOf (c : Ctx) : Settings :=
  { minVer := 11, maxVer := 12, verify := true, needCert := false, store := c.store, crl := c.crl,
    depth := 6, curve := if c.nid ≠ 0 then c.nid else prime256v1, dh := c.dh,
    suites := if c.srp then cipherListSrp else cipherList, tickets := false }

/-- `mg_start` with `set_ssl_option`, `est_server_http.c` lines 1328-1492 and 1823-1853: the new
service, and the context.  The trusted certificates and the Diffie-Hellman parameters are moved
into the `SSL_CTX`; if something fails afterwards, `free_context` releases them with it. -/
def mgStart (l : StartLib) (c : Ctx) : Option Settings × Ctx :=
  if !l.mem || !l.sslCtx then (none, c)
  else
    let t := settingsOf c
    if !l.curve t.curve then (none, { c with store := none })
    else if !l.ciphers || !l.useCert || !l.useKey then (none, { c with store := none, dh := none })
    else (some t, { c with store := none, dh := none })

/-! ## A connection -/

/-- A suite that a client offers: by its name, or one of the suites with SRP.  The suites allowed
by `est_locl.h` lines 94-123. -/
inductive Suite
  | named (n : List Nat)
  | srp
deriving DecidableEq, Repr

/-- What a client brings: the highest version, its suites in the order it prefers them, its
curves, its certificate.  The peer of `SSL_accept`, `est_server_http.c` line 1751. -/
structure Hello where
  version : Nat
  suites : List Suite
  curves : List Int
  cert : Option Der
deriving DecidableEq, Repr

/-- What a connection that was set up has.  The session on which `process_new_connection` is
called, `est_server_http.c` lines 1510-1600. -/
structure Session where
  version : Nat
  suite : Suite
  cert : Option Der
deriving DecidableEq, Repr

/-- OpenSSL's check of a certificate: with these trusted certificates, CRL checks, depth, for the
purpose of a TLS client.  Set up at `est_server_http.c` lines 1421-1434. -/
abbrev Verify := List Der → Bool → Nat → Der → Bool

/-- Whether OpenSSL uses a suite: it has to be among those set with `SSL_CTX_set_cipher_list`; one
with ephemeral keys needs a common curve or parameters.  `est_server_http.c` lines 1398-1470. -/
def usable (t : Settings) (h : Hello) : Suite → Bool
  | .srp => t.suites.contains [83, 82, 80]
  | .named n =>
    t.suites.contains n && (!([69, 67, 68, 72, 69, 45]).isPrefixOf n || h.curves.contains t.curve)
      && (!([68, 72, 69, 45]).isPrefixOf n || t.dh.isSome)

/-- The TLS handshake (`SSL_accept`, `est_server_http.c` line 1751) as OpenSSL does it with these
settings.  Only what the settings decide is modelled.  No certificate is asked for with SRP. -/
def handshake (v : Verify) (t : Settings) (h : Hello) : Option Session :=
  let ver := min h.version t.maxVer
  if ver < t.minVer then none
  else
    match h.suites.find? (usable t h) with
    | none => none
    | some .srp => some ⟨ver, .srp, none⟩
    | some (.named n) =>
      match h.cert with
      | none => if t.needCert then none else some ⟨ver, .named n, none⟩
      | some d =>
        if t.verify && !v (t.store.getD []) t.crl t.depth d then none
        else some ⟨ver, .named n, some d⟩

/-- What libcoap is told about a handshake, `est_server_coap.c` lines 2648-2670 and 2716-2774: the
certificate is required, and the trusted certificates are those of the context at that time.
Versions and suites are libcoap's.  CRLs are checked, but a missing one is accepted
(`allow_no_crl`), whatever `est_enable_crl` said; the check is therefore modelled as one without
CRLs. -/
def dtls (v : Verify) (c : Ctx) (h : Hello) : Option Session :=
  match h.cert with
  | none => none
  | some d => if v (c.store.getD []) false 7 d then some ⟨h.version, .named [], some d⟩ else none

/-- Why `SSL_accept` did not succeed, as `SSL_get_error` says.  The cases of
`est_server_http.c` lines 1752-1778. -/
inductive Failure
  | syscall | ssl | wantIo | wantLookup | other
deriving DecidableEq, Repr

/-- A connection handed over by the application: whether `getpeername`, `calloc` and `SSL_new`
succeed, what the client brings, what stops `SSL_accept` (`none`: only the handshake itself), and
whether it continues afterwards, which is only possible for a socket that does not block.  For
CoAP, `run` says whether `coap_run_once` succeeds.
`est_server_http.c` lines 1658-1797. -/
structure Conn where
  peername : Bool
  mem : Bool
  sslNew : Bool
  hello : Hello
  stop : Option Failure
  run : Bool

/-- What a call returns, and the session on which requests were served.  The results of
`est_server_http.c` lines 1658-1797 and of the calls in `est_server.c`. -/
structure Out where
  ret : EstErr
  session : Option Session
deriving DecidableEq, Repr

/-- A call that does nothing but return an error code.  `est_server.c` lines 3097-3150. -/
def ret (e : EstErr) : Out := ⟨e, none⟩

/-- `est_server_handle_request` with a running HTTP service, `est_server_http.c` lines 1696-1795:
for SSL_ERROR_WANT_READ and -WRITE the connection is served, that is, the handshake is continued
while the request is read. -/
def handleHttp (v : Verify) (t : Settings) (k : Conn) : Out :=
  if !k.peername then ret .unknown
  else if !k.mem then ret .malloc
  else if !k.sslNew then ret .none
  else
    match k.stop with
    | none =>
      match handshake v t k.hello with
      | none => ret .unknown
      | some s => ⟨.none, some s⟩
    | some .wantIo => ⟨.none, handshake v t k.hello⟩
    | some .syscall => ret .syscall
    | some .ssl => ret .unknown
    | some .wantLookup => ret .unknown
    | some .other => ret .none

/-! ## The calls -/

/-- The calls on a context.  For the parameters NULL is `none` and `false`.  The functions named at
the head of this file; `est_server.c` lines 3097-4018. -/
inductive Op
  | start (l : StartLib)
  | stop
  | handle (k : Conn)
  | enableCrl
  | enableSrp (cb : Bool)
  | setCurve (nid : Int)
  | setDh (p : Option Nat)
  | coapStart (ok : Bool)
  | destroy

/-- 1 if there is a service.  Not a function of the code: it counts what `est_server.c` line 3107
overwrites. -/
def running : Mg → Nat
  | .live _ => 1
  | _ => 0

/-- `est_server_start` and `est_proxy_start`, `est_server.c` lines 3097-3113, `est_proxy.c` lines
2003-2019.  A service that is running is not stopped: its pointer is overwritten. -/
def start (l : StartLib) (c : Ctx) : Out × Ctx :=
  match mgStart l c with
  | (none, c') => (ret .noSslCtx, c')
  | (some t, c') =>
    (ret .none, { c' with mg := .live t, lostMg := c'.lostMg + running c'.mg })

/-- `mg_stop` where `mg_ctx` is not NULL, `est_server_http.c` lines 1800-1821.  The pointer is not
set to NULL.  `none` is undefined behaviour: memory that was released is used. -/
def mgStop (c : Ctx) : Option (Out × Ctx) :=
  match c.mg with
  | .null => some (ret .none, c)
  | .live _ => some (ret .none, { c with mg := .stale })
  | .stale => none

/-- `est_server_stop`, `est_server.c` lines 3126-3150, and `est_proxy_stop`, `est_proxy.c` lines
2032-2046, which does not look at the transport. -/
def stop (c : Ctx) : Option (Out × Ctx) :=
  if c.coap && !c.proxy then some (ret .none, { c with coapCtx := false })
  else mgStop c

/-- `est_server_handle_request`, `est_server_http.c` lines 1602-1633 and 1660-1804. -/
def handle (v : Verify) (k : Conn) (c : Ctx) : Option (Out × Ctx) :=
  if c.coap then
    some (if !c.coapCtx then ret .noCtx
      else if !k.run then ret .unknown
      else ⟨.none, dtls v c k.hello⟩, c)
  else
    match c.mg with
    | .null => some (ret .noCtx, c)
    | .live t => some (handleHttp v t k, c)
    | .stale => none

/-- `est_server_coap_init_start`, `est_server_coap.c` lines 3205-3291, for a valid port; also
called by `est_proxy_coap_init_start`.  A context of libcoap that was there is overwritten. -/
def coapStart (ok : Bool) (c : Ctx) : Out × Ctx :=
  let c := { c with lostCoap := c.lostCoap + if c.coapCtx then 1 else 0 }
  if ok then (ret .none, { c with coapCtx := true, coap := true })
  else (ret .coapProcessingError, { c with coapCtx := false })

/-- `est_destroy`, `est.c` lines 743-835: everything but the service is released. -/
def destroy (c : Ctx) : Out × Ctx :=
  let c := { c with store := none, dh := none, coapCtx := false, dead := true }
  (ret .none, { c with mg := .null, lostMg := c.lostMg + running c.mg })

/-- One call; `none` is undefined behaviour.  `est_server.c` lines 3837-4018, `est.c` lines
743-835 and 1187-1213; the other functions as given above. -/
def step (v : Verify) (c : Ctx) (op : Op) : Option (Out × Ctx) :=
  if c.dead then none
  else
    match op with
    | .start l => some (start l c)
    | .stop => stop c
    | .handle k => handle v k c
    | .enableCrl => some (ret .none, { c with crl := true })
    | .enableSrp cb =>
      some (if cb then (ret .none, { c with srp := true }) else (ret .invalidParameters, c))
    | .setCurve n =>
      some (if n ≤ 0 then (ret .invalidParameters, c) else (ret .none, { c with nid := n }))
    | .setDh none => some (ret .invalidParameters, c)
    | .setDh (some p) =>
      let n := if c.dh.isSome then 1 else 0
      some (ret .none, { c with dh := some p, lostDh := c.lostDh + n })
    | .coapStart ok => some (coapStart ok c)
    | .destroy => some (destroy c)

/-- A sequence of calls: what each of them returned, the last one first.  The functions of
`est_server.c` lines 3097-4018 as an application calls them. -/
def run (v : Verify) : Ctx → List Op → Option (List (Op × Out) × Ctx)
  | c, [] => some ([], c)
  | c, op :: ops =>
    match step v c op with
    | none => none
    | some (o, c') => (run v c' ops).map fun r => (r.1 ++ [(op, o)], r.2)

end Verif.Life
