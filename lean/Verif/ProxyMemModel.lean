import Verif.ServerMemModel

/-!
# Ownership of memory in the proxy

Which memory blocks the proxy allocates, uses and releases: the table of client
contexts (one for each thread), the HTTP requests with everything they cause on
the way to the upstream server, `est_proxy_retrieve_cacerts`,
`est_proxy_store_path_segment`, and the end of the proxy.

The proxy uses the code of the client towards the upstream server and the code
of the server towards the end points, so the model uses `ClientMemModel` and
`ServerMemModel`; heap, allocation and undefined behaviour are theirs.  The
answers of the network, of the upstream server and of OpenSSL are arguments.

Not modelled: CoAP requests, the blocks of the proxy's own context besides the
table and the path segment, the order of the table (see `ProxyTableModel`), and
requests of several threads at the same time (the requests of several threads
come one after another).
-/
namespace Verif.ProxyMem
open Verif.ClientMem (Mem Heap alloc newRef free use copy Ctx InitIn init destroy setSegment Conn
  Ses Send Ask Verify Resp KResp connect disconnect sendEnroll getCacerts getCsrattrs copyCacerts)
open Verif.ServerMem (B64 Peer peerRef Try State enrollAuth theCsr checkCsr Pop popCheck parseAttrs
  addChallenge sendAttrs sendFresh Uri parseUri event)

/-! ## The table of client contexts -/

/-- The proxy: the block of the table (`client_ctx_array`), the number of
entries it has room for (`cur_max_ctx_array`), its used entries (thread and
client context), and the path segment of the proxy itself.
The fields of `struct est_ctx`, `est_locl.h` lines 389-578, and the variable of
`est_proxy.c` line 50. -/
structure Px where
  array : Option Nat
  cap : Nat
  clients : List (Nat × Ctx)
  seg : Option Nat
deriving DecidableEq, Repr

/-- How making a client context goes: `est_client_init`, `est_client_set_auth`,
`est_client_set_server`, `est_client_set_read_timeout`.  (The fourth call,
`est_client_set_auth_cred_cb`, fails only for a `NULL` context.)  The cases of
`est_proxy.c` lines 109-165. -/
structure NewCtx where
  made : InitIn
  auth : Bool
  server : Bool
  timeout : Bool
deriving DecidableEq, Repr

/-- The entry of a thread, and the other entries.  The search of `est_proxy.c`
lines 104-108.  (The entry is taken out while it is in use, and put back by
`put`.) -/
def pick (tid : Nat) : List (Nat × Ctx) → Option (Ctx × List (Nat × Ctx))
  | [] => none
  | (t, c) :: r =>
    if t = tid then some (c, r)
    else match pick tid r with
      | none => none
      | some (d, r') => some (d, (t, c) :: r')

/-- The entry of a thread is put (back) into the table, `est_proxy.c` lines
199-207. -/
def put (p : Px) (tid : Nat) (c : Ctx) : Px := { p with clients := (tid, c) :: p.clients }

/-- Room for one more entry, `est_proxy.c` lines 167-197: a full table is
replaced by one twice as long.  The result of `malloc` is not checked; `qsort`
and `bsearch` then work on the null pointer. -/
def room (p : Px) : Mem Px :=
  if p.clients.length < p.cap then pure p
  else do
    let t ← alloc
    copy t p.array
    free p.array
    use t
    pure { p with array := t, cap := 2 * p.cap }

/-- A new client context for the proxy, `est_proxy.c` lines 109-165. -/
def newClient (n : NewCtx) : Mem (Option Ctx) := do
  match ← init n.made with
  | none => pure none
  | some c =>
    if n.auth && n.server && n.timeout then pure (some c)
    else
      destroy c
      pure none

/-- `get_client_ctx`, `est_proxy.c` lines 79-218: the context of the thread (none
when it could not be made) and the proxy with the other entries. -/
def getClient (p : Px) (tid : Nat) (n : NewCtx) : Mem (Option Ctx × Px) := do
  use p.array
  match pick tid p.clients with
  | some (c, r) => pure (some c, { p with clients := r })
  | none =>
    match ← newClient n with
    | none => pure (none, p)
    | some c =>
      let p ← room p
      pure (some c, p)

/-- The contexts of all entries are destroyed, `est_proxy.c` lines 232-236. -/
def destroyAll : List (Nat × Ctx) → Mem Unit
  | [] => pure ()
  | (_, c) :: r => do
    destroy c
    destroyAll r

/-- `proxy_cleanup`, `est_proxy.c` lines 224-240, and the release of the path
segment in `est_destroy`, `est.c` lines 743-835. -/
def cleanup (p : Px) : Mem Unit := do
  match p.array with
  | none => free p.seg
  | some a =>
    destroyAll p.clients
    free (some a)
    free p.seg

/-- The path segment of the request, or else the one of the proxy, is copied
into the client context: `est_proxy_set_path_segment`, `est_proxy.c` lines
592-611, called at lines 735-752, 1018-1035, 1211-1228 and 1364-1381. -/
def storeSeg (p : Px) (seg : Option Nat) (c : Ctx) : Mem (EstErr × Ctx) :=
  match seg.or p.seg with
  | none => pure (.none, c)
  | some s => do
    use (some s)
    setSegment c

/-! ## Enrolment -/

/-- What happens on the way to the upstream server: the connection, the
request, the session at the end.  (The answer is given beside it.)  The cases of
`est_proxy.c` lines 452-522. -/
structure Up where
  conn : Conn
  send : Send
  ses : Ses
deriving DecidableEq, Repr

/-- `est_proxy_send_enroll_request` and `est_proxy_send_keygen_request`,
`est_proxy.c` lines 452-522: an `SSL` object that `est_client_connect` leaves
behind when the handshake fails is not released. -/
def forward (c : Ctx) (u : Up) (a : Ask) (pkcs7 key : Option Nat) : Mem (EstErr × Ctx) := do
  let (e, c, ssl) ← connect c u.conn
  match e with
  | .none =>
    let e ← sendEnroll u.send a pkcs7 key
    let c ← disconnect c ssl u.ses
    pure (e, c)
  | e => pure (e, c)

/-- The loop `try_again`, `est_proxy.c` lines 764-828 and 1044-1106.
(Simplification: as many attempts as are given; after each but the last the
proxy still has credentials to try.) -/
def attempts (c : Ctx) (pkcs7 key : Option Nat) : List (Up × Ask) → Mem (EstErr × Ctx)
  | [] => pure (.authFail, c)
  | (u, a) :: us => do
    let (e, c) ← forward c u a pkcs7 key
    match e with
    | .authFail => attempts c pkcs7 key us
    | e => pure (e, c)

/-- The error that is reported for an error of the upstream request,
`est_proxy.c` lines 778-833. -/
def upstreamErr : EstErr → EstErr
  | .none => .none
  | .ipGetaddr => .ipConnect
  | .ipConnect => .ipConnect
  | .sslRead => .ipConnect
  | .sslConnect => .httpUnsupported
  | .fqdnMismatch => .httpUnsupported
  | .sslWrite => .httpUnsupported
  | .zeroLengthBuf => .httpUnsupported
  | .multipartParse => .httpUnsupported
  | .unknown => .httpUnsupported
  | .bufExceedsMaxLen => .httpUnsupported
  | .httpUnsupported => .httpUnsupported
  | .httpBadReq => .httpBadReq
  | .httpNoContent => .httpNoContent
  | .httpNotFound => .httpNotFound
  | .httpLocked => .httpLocked
  | .caEnrollRetry => .caEnrollRetry
  | .authFail => .authFail
  | _ => .unknown

/-- Authentication of the client and its CSR: whether the content type is
right; the inputs of `est_enroll_auth`; what the checks of the CSR find.  The
cases of `est_proxy.c` lines 638-707. -/
structure Admit where
  ready : Bool
  re : Bool
  srp : Bool
  auth : Try
  parses : Bool
  pubkey : Bool
  sigOk : Bool
  pop : Pop
deriving DecidableEq, Repr

/-- The error for a client that is not let in, `est_proxy.c` lines 663-675. -/
def refusal : State → EstErr
  | .pending => .authPending
  | .parseFail => .badPkcs10
  | _ => .authFail

/-- The checks of the CSR, which is released afterwards, `est_proxy.c` lines
677-707 and 948-980. -/
def checkIn (x : Admit) (kept : Option Nat) : Mem (Option EstErr) := do
  match ← theCsr kept x.parses with
  | none => pure (some .badPkcs10)
  | some r =>
    use (some r)
    let good ← checkCsr x.pubkey x.sigOk
    if !good then
      free (some r)
      pure (some .badPkcs10)
    else
      let good ← popCheck x.pop
      free (some r)
      if good then pure none else pure (some .authFailTlsuid)

/-- The beginning of `est_proxy_handle_simple_enroll`, `est_proxy.c` lines
638-707: none for a client that is let in.  When it is refused, the CSR that
the authentication kept is not released. -/
def admitEnroll (peer : Peer) (x : Admit) : Mem (Option EstErr) := do
  if !x.ready then pure (some .badContentType)
  else
    let (s, kept) ← enrollAuth peer x.srp x.re x.auth
    if !s.passes then pure (some (refusal s))
    else checkIn x kept

/-- The beginning of `est_proxy_handle_server_keygen`, `est_proxy.c` lines
918-980: here the CSR is released. -/
def admitKeygen (peer : Peer) (x : Admit) : Mem (Option EstErr) := do
  if !x.ready then pure (some .badContentType)
  else
    let (s, kept) ← enrollAuth peer x.srp true x.auth
    if !s.passes then
      free kept
      pure (some (refusal s))
    else checkIn x kept

/-- An enrolment: the way in, the way to the upstream server with the answers,
and whether the response to the client can be written.  The cases of
`est_proxy.c` lines 621-880. -/
structure EnrollIn where
  adm : Admit
  new : NewCtx
  ups : List (Up × Resp)
  sent : Bool
deriving DecidableEq, Repr

/-- The upstream request and its result, `est_proxy.c` lines 759-879.  `bm` is
the `BUF_MEM` made for the body of the request. -/
def enrollUp (p : Px) (tid : Nat) (c : Ctx) (x : EnrollIn) (bm : Nat) :
    Mem (Px × EstErr × Option Nat) := do
  match ← alloc with
  | none => pure (put p tid c, .malloc, none)
  | some pkcs7 =>
    let (e, c) ← attempts c (some pkcs7) none (x.ups.map (fun u => (u.1, Ask.enroll u.2)))
    free (some bm)
    if e = .none then
      use (some pkcs7)
      pure (put p tid c, if x.sent then .none else .httpWrite, some pkcs7)
    else
      free (some pkcs7)
      pure (put p tid c, upstreamErr e, none)

/-- `est_proxy_handle_simple_enroll`, `est_proxy.c` lines 621-880: the error and
`*returned_cert`.  The result of `BUF_MEM_new` is not checked. -/
def handleEnroll (p : Px) (tid : Nat) (peer : Peer) (seg : Option Nat) (x : EnrollIn) :
    Mem (Px × EstErr × Option Nat) := do
  match ← admitEnroll peer x.adm with
  | some e => pure (p, e, none)
  | none =>
    match ← alloc with
    | none =>
      use none
      pure (p, .malloc, none)
    | some bm =>
      let (c, p) ← getClient p tid x.new
      match c with
      | none =>
        free (some bm)
        pure (p, .noCtx, none)
      | some c =>
        let (e, c) ← storeSeg p seg c
        if e = .none then enrollUp p tid c x bm
        else
          free (some bm)
          pure (put p tid c, e, none)

/-- A key generation request, like `EnrollIn`.  The cases of `est_proxy.c` lines
892-1157. -/
structure KeygenIn where
  adm : Admit
  new : NewCtx
  ups : List (Up × KResp)
  sent : Bool
deriving DecidableEq, Repr

/-- The upstream request and its result, `est_proxy.c` lines 1037-1156.  The
results of `malloc` are not checked (`memcpy_s`, `memzero_s` and `free` accept
null pointers, the functions that write the response do not). -/
def keygenUp (p : Px) (tid : Nat) (c : Ctx) (x : KeygenIn) (bm : Nat) :
    Mem (Px × EstErr × Option Nat × Option Nat) := do
  let pkcs7 ← alloc
  let key ← alloc
  let (e, c) ← attempts c pkcs7 key (x.ups.map (fun u => (u.1, Ask.keygen u.2 .good true true)))
  free (some bm)
  if e = .none then
    use key
    use pkcs7
    pure (put p tid c, if x.sent then .none else .httpWrite, pkcs7, key)
  else
    free key
    free pkcs7
    pure (put p tid c, upstreamErr e, none, none)

/-- `est_proxy_handle_server_keygen`, `est_proxy.c` lines 892-1157: the error,
`*returned_cert` and `*returned_key`. -/
def handleKeygen (p : Px) (tid : Nat) (peer : Peer) (seg : Option Nat) (x : KeygenIn) :
    Mem (Px × EstErr × Option Nat × Option Nat) := do
  match ← admitKeygen peer x.adm with
  | some e => pure (p, e, none, none)
  | none =>
    match ← alloc with
    | none =>
      use none
      pure (p, .malloc, none, none)
    | some bm =>
      let (c, p) ← getClient p tid x.new
      match c with
      | none =>
        free (some bm)
        pure (p, .noCtx, none, none)
      | some c =>
        let (e, c) ← storeSeg p seg c
        if e = .none then keygenUp p tid c x bm
        else
          free (some bm)
          pure (put p tid c, e, none, none)

/-! ## CA certificates and attributes -/

/-- Reading through a pointer that is checked before.  E.g. the certificates in
`est_server.c` lines 187-314. -/
def useIf : Option Nat → Mem Unit
  | none => pure ()
  | some p => use (some p)

/-- The way of a cacerts request to the upstream server.  The cases of
`est_proxy.c` lines 1199-1303. -/
structure CertsIn where
  new : NewCtx
  up : Up
  verify : Verify
deriving DecidableEq, Repr

/-- `est_proxy_handle_cacerts`, `est_proxy.c` lines 1165-1328, over HTTP: `none`
when the proxy has certificates of its own, which it sends.  The certificates
received stay in the client context. -/
def handleCacerts (p : Px) (tid : Nat) (seg : Option Nat) : Option CertsIn → Mem Px
  | none => pure p
  | some x => do
    let (c, p) ← getClient p tid x.new
    match c with
    | none => pure p
    | some c =>
      let (e, c) ← storeSeg p seg c
      if e = .none then
        let (e, c) ← getCacerts c x.up.conn x.up.send x.verify x.up.ses
        if e = .none then
          useIf c.cacerts
          pure (put p tid c)
        else pure (put p tid c)
      else pure (put p tid c)

/-- An attributes request: the way to the upstream server; whether the proxy
asks for a proof of possession; how the attributes received decode, whether
they are well formed, whether they contain the challenge password, whether they
are a sequence, whether the result can be encoded.  The cases of `est_proxy.c`
lines 1336-1534. -/
structure AttrsIn where
  new : NewCtx
  up : Up
  pop : Bool
  dec : B64
  sane : Bool
  present : Bool
  isSeq : Bool
  encOk : Bool
deriving DecidableEq, Repr

/-- The attributes received are sent on, with the challenge password added if
necessary, `est_proxy.c` lines 1448-1533.  When the check of the attributes
fails for want of memory, they are not released. -/
def sendOn (x : AttrsIn) (data : Option Nat) : Mem Unit :=
  if !x.pop then sendAttrs data
  else match data with
    | none => sendFresh
    | some d => do
      let good ← parseAttrs x.dec x.sane
      if !good then pure ()
      else if x.present then sendAttrs (some d)
      else
        match ← addChallenge x.dec x.isSeq x.encOk with
        | none => free (some d)
        | some q =>
          free (some d)
          sendAttrs (some q)

/-- `est_proxy_handle_csr_attrs`, `est_proxy.c` lines 1336-1534, over HTTP.  The
buffer is taken out of the client context. -/
def handleAttrs (p : Px) (tid : Nat) (seg : Option Nat) (x : AttrsIn) : Mem Px := do
  let (c, p) ← getClient p tid x.new
  match c with
  | none => pure p
  | some c =>
    let (e, c) ← storeSeg p seg c
    if e = .none then
      let (e, c) ← getCsrattrs c x.up.conn x.up.send (x.dec == .good && x.sane) x.up.ses
      let data := if e = .none then c.csrattrs else none
      let c := { c with csrattrs := none }
      if e = .none ∨ (e = .httpNoContent ∧ x.pop) then
        sendOn x data
        pure (put p tid c)
      else pure (put p tid c)
    else pure (put p tid c)

/-- `est_proxy_retrieve_cacerts`, `est_proxy.c` lines 377-443: the buffer that is
handed to the caller. -/
def retrieve (p : Px) (tid : Nat) (x : CertsIn) : Mem (Px × Option Nat) := do
  let (c, p) ← getClient p tid x.new
  match c with
  | none => pure (p, none)
  | some c =>
    let (e, c) ← getCacerts c x.up.conn x.up.send x.verify x.up.ses
    if e = .none then
      match ← alloc with
      | none => pure (put p tid c, none)
      | some b =>
        let (e, c) ← copyCacerts c
        if e = .none then
          use (some b)
          pure (put p tid { c with ready := true }, some b)
        else
          free (some b)
          pure (put p tid c, none)
    else pure (put p tid c, none)

/-! ## Requests -/

/-- What a request asks for.  The cases of `est_proxy.c` lines 1552-1985. -/
inductive Work
  | refused
  | cacerts (x : Option CertsIn)
  | csrattrs (x : AttrsIn)
  | enroll (x : EnrollIn) (before after : Option Bool)
  | keygen (x : KeygenIn) (before after : Option Bool)
deriving DecidableEq, Repr

/-- What the dispatcher does with the results of a key generation, `est_proxy.c`
lines 1900-1938: they are released only when there was no error. -/
def afterKeygen (e : EstErr) (cert key : Option Nat) (after : Option Bool) : Mem Unit :=
  if e = .none then do
    event after
    free cert
    useIf key
    free key
  else if e = .authPending then event after
  else pure ()

/-- The middle part of `est_proxy_http_request`, `est_proxy.c` lines 1627-1970. -/
def perform (p : Px) (tid : Nat) (peer : Peer) (seg : Option Nat) : Work → Mem Px
  | .refused => pure p
  | .cacerts x => handleCacerts p tid seg x
  | .csrattrs x => handleAttrs p tid seg x
  | .enroll x before after => do
    event before
    let (p, _, cert) ← handleEnroll p tid peer seg x
    event after
    free cert
    pure p
  | .keygen x before after => do
    event before
    let (p, e, cert, key) ← handleKeygen p tid peer seg x
    afterKeygen e cert key after
    pure p

/-- A request: the thread that handles it, whether it has a body, whether there
is a TLS connection, the certificate of the client, the URI, what it asks for.
`est_server_http.c` lines 1211-1256 and `est_proxy.c` lines 1552-1985. -/
structure Rq where
  tid : Nat
  body : Bool
  tls : Bool
  peer : Peer
  uri : Uri
  work : Work
deriving DecidableEq, Repr

/-- `est_proxy_http_request`, `est_proxy.c` lines 1552-1985: the reference to the
client's certificate is never released. -/
def httpRequest (p : Px) (q : Rq) : Mem Px := do
  if !q.tls then pure p
  else
    let _ ← peerRef q.peer
    let (good, seg) ← parseUri q.uri
    if !good then pure p
    else
      let p ← perform p q.tid q.peer seg q.work
      free seg
      pure p

/-- `est_mg_handler`, `est_server_http.c` lines 1211-1256, for a proxy. -/
def handler (p : Px) (q : Rq) : Mem Px := do
  if q.body then
    let b ← alloc
    use b
    let p ← httpRequest p q
    free b
    pure p
  else httpRequest p q

/-- What an application does with a proxy: a request arrives; it retrieves the CA
certificates (and releases the buffer); it sets the path segment.  The public
functions of `est_proxy.c` lines 377-590 and 1552-1985. -/
inductive Op
  | request (q : Rq)
  | retrieve (tid : Nat) (x : CertsIn)
  | segment
deriving DecidableEq, Repr

/-- `est_proxy_store_path_segment`, `est_proxy.c` lines 529-590, for a segment
that passes the checks, with `est_store_path_segment` (`est.c` lines 2171-2193). -/
def ownSegment (p : Px) : Mem Px := do
  free p.seg
  match ← alloc with
  | none => pure { p with seg := none }
  | some s =>
    use (some s)
    pure { p with seg := some s }

/-- One operation.  `est_proxy.c` lines 377-590 and 1552-1985. -/
def step (p : Px) : Op → Mem Px
  | .request q => handler p q
  | .retrieve tid x => do
    let (p, b) ← retrieve p tid x
    free b
    pure p
  | .segment => ownSegment p

/-- Operations one after another.  `est_proxy.c` lines 377-590 and 1552-1985. -/
def steps (p : Px) : List Op → Mem Px
  | [] => pure p
  | op :: ops => do
    let p ← step p op
    steps p ops

/-- The life of a proxy: its table is allocated (`est_proxy_init`, `est_proxy.c`
lines 2221-2222, where the result of `malloc` is not checked), it is used, it is
destroyed. -/
def life (cap : Nat) (ops : List Op) : Mem Unit := do
  let a ← alloc
  let p ← steps ⟨a, cap, [], none⟩ ops
  cleanup p

end Verif.ProxyMem
