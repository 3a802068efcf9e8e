import Verif.EstErr

/-!
# Ownership of memory in the client

A model of which memory blocks the client library allocates, uses and releases
during the life of one context: `est_client_init`, the operations that talk to
the server, the functions that hand results to the application, and
`est_destroy`.

The heap only knows which blocks are live.  Releasing or using a block that is
not live, or using the null pointer, is undefined behaviour (`none`).  Whether
the n-th attempt to allocate succeeds is decided by a function `Nat → Bool`
that is an argument of the whole program, so every pattern of memory shortage
is covered.

What the network, the server and OpenSSL answer are arguments of the
operations.  An object made by OpenSSL (`BIO`, `SSL`, `PKCS7`, …) is one block.

Not modelled: the BRSKI operations, sockets, the buffers' contents and lengths
beyond the tests that decide which blocks are allocated or released, the
internal allocations of OpenSSL, `est_base64_decode` (it allocates and, when it
refuses its input, does not release two `BIO`s; see `DESIGN.md`).
-/
namespace Verif.ClientMem

/-- The blocks that are live, and the number of allocations attempted so far.  The
allocations meant are those of `est_client.c` lines 268-4545, `est_client_http.c` lines
608-1850 and `est.c` lines 600-2193. -/
structure Heap where
  next : Nat
  live : List Nat
deriving DecidableEq, Repr

/-- A piece of program: given the outcome of the allocations and a heap, a
result and a heap, or undefined behaviour.  The functions of `est_client.c` lines
268-4545 are written with it. -/
def Mem (α : Type) : Type := (Nat → Bool) → Heap → Option (α × Heap)

instance : Monad Mem where
  pure a := fun _ h => some (a, h)
  bind m f := fun ok h => match m ok h with
    | none => none
    | some (a, h') => f a ok h'

/-- `malloc`, `calloc`, `BIO_new`, `SSL_new`, …: a fresh block or `NULL`.  E.g.
`est_client.c` line 1341, 1573 or 3048. -/
def alloc : Mem (Option Nat) := fun ok h =>
  if ok h.next then some (some h.next, ⟨h.next + 1, h.next :: h.live⟩)
  else some (none, ⟨h.next + 1, h.live⟩)

/-- An OpenSSL function that gives a new object or, for its own reasons, none.  E.g.
d2i_PKCS7_bio at `est_client.c` lines 370-450. -/
def allocIf (b : Bool) : Mem (Option Nat) := if b then alloc else pure none

/-- A new reference to an object, e.g. `SSL_get1_session`: cannot fail.  Called in
`est_client.c` lines 2915-2950. -/
def newRef : Mem Nat := fun _ h => some (h.next, ⟨h.next + 1, h.next :: h.live⟩)

/-- `free` and the OpenSSL release functions: nothing for `NULL`, undefined for
a block that is not live.  E.g. `est_client.c` line 3046. -/
def free : Option Nat → Mem Unit
  | none => pure ()
  | some p => fun _ h => if p ∈ h.live then some ((), { h with live := h.live.erase p }) else none

/-- Reading or writing through a pointer.  E.g. `est_client.c` lines 3056-3058. -/
def use : Option Nat → Mem Unit
  | none => fun _ _ => none
  | some p => fun _ h => if p ∈ h.live then some ((), h) else none

/-- Reading a field through a null pointer, e.g. `est_client.c` line 458. -/
def undef {α : Type} : Mem α := fun _ _ => none

/-- `memcpy_s` (`safe_c_stub/src/safe_mem_stub.c` lines 65-70): nothing when one
of the pointers is `NULL`. -/
def copy (dst src : Option Nat) : Mem Unit :=
  match dst, src with
  | some d, some s => do
    use (some d)
    use (some s)
  | _, _ => pure ()

/-- The pointers that a client context owns.  `est_locl.h` (`struct est_ctx`):
`uri_path_segment`, `retrieved_ca_certs`, `retrieved_csrattrs`,
`enrolled_client_cert`, `server_gen_client_priv_key`, `trusted_certs_store`,
`ssl_ctx` with the certificate store handed to it, `sess`, and
`est_client_initialized`.  The structure is `est_locl.h` lines 389-578. -/
structure Ctx where
  self : Nat
  ready : Bool
  seg : Option Nat
  cacerts : Option Nat
  csrattrs : Option Nat
  cert : Option Nat
  key : Option Nat
  store : Option Nat
  ssl : Option Nat
  sslStore : Option Nat
  sess : Option Nat
deriving DecidableEq, Repr

/-- The part of `est_destroy` about TLS, `est.c` lines 806-820. -/
def destroyTls (c : Ctx) : Mem Unit :=
  match c.ssl with
  | none => pure ()
  | some s => do
    free c.sess
    free (some s)
    free c.sslStore

/-- `est_destroy`, `est.c` lines 743-835, for a client.
`server_gen_client_priv_key` is not mentioned in it. -/
def destroy (c : Ctx) : Mem Unit := do
  free c.store
  free c.cacerts
  free c.csrattrs
  free c.cert
  free c.seg
  destroyTls c
  free (some c.self)

/-- What happens while a context is created: `certsOk`: the trust anchors
given can be loaded; `ciphersOk`: OpenSSL accepts the cipher list.  `est_client.c`
lines 4453-4545. -/
structure InitIn where
  certsOk : Bool
  ciphersOk : Bool
deriving DecidableEq, Repr

/-- `est_client_init`, `est_client.c` lines 4453-4545 with
`est_load_trusted_certs` (`est.c` 655-680) and `est_client_init_ssl_ctx`
(`est_client.c` 790-890).  The checks of the arguments that come before the
first allocation are left out.  When the cipher list is refused, or the
verification parameters cannot be allocated, the new `SSL_CTX` is in no field
yet and is lost. -/
def init (i : InitIn) : Mem (Option Ctx) := do
  match ← alloc with
  | none => pure none
  | some self =>
    let c : Ctx := ⟨self, false, none, none, none, none, none, none, none, none, none⟩
    match ← alloc with
    | none =>
      destroy c
      pure none
    | some st =>
      let c := { c with store := some st }
      if !i.certsOk then
        destroy c
        pure none
      else
        match ← alloc with
        | none =>
          destroy c
          pure none
        | some s =>
          if !i.ciphersOk then
            destroy c
            pure none
          else
            let c := { c with store := none }
            match ← alloc with
            | none =>
              destroy c
              pure none
            | some vpm =>
              free (some vpm)
              pure (some { c with ssl := some s, sslStore := some st, ready := true })

/-- `est_store_path_segment`, `est.c` lines 2171-2193, reached from
`est_client_set_server` (`est_client.c` 4566-4635) for a path segment that
passed the checks. -/
def setSegment (c : Ctx) : Mem (EstErr × Ctx) := do
  free c.seg
  match ← alloc with
  | none => pure (.malloc, { c with seg := none })
  | some p =>
    use (some p)
    pure (.none, { c with seg := some p })

/-- The session found when a connection is closed, compared with the one the
context holds.  The comparison in `est_client.c` lines 2915-2950. -/
inductive Ses | absent | same | fresh
deriving DecidableEq, Repr

/-- How opening a connection goes: the error of `tcw_connect`/`setsockopt`, if
any; whether the handshake succeeds; whether the server's name matches; the
session when it does not.  The cases of `est_client.c` lines 2770-2905. -/
structure Conn where
  tcp : Option EstErr
  shake : Bool
  nameOk : Bool
  ses : Ses
deriving DecidableEq, Repr

/-- An `SSL` object and the `BIO` it owns after `SSL_set_bio`.  Created in
`est_client.c` lines 2770-2905. -/
structure Ssl where
  obj : Nat
  bio : Nat
deriving DecidableEq, Repr

/-- `SSL_free`.  Called in `est_client.c` lines 2770-2950. -/
def sslFree : Option Ssl → Mem Unit
  | none => pure ()
  | some s => do
    free (some s.obj)
    free (some s.bio)

/-- The session is kept for the next connection, `est_client.c` lines
2923-2940.  When the context already holds a reference to a session and the
connection ends with another one, the old reference is overwritten. -/
def keepSession (c : Ctx) (ses : Ses) : Mem Ctx :=
  match c.sess, ses with
  | none, .absent => pure c
  | some _, .absent => pure { c with sess := none }
  | some _, .same => pure c
  | _, _ => do
    let r ← newRef
    pure { c with sess := some r }

/-- `est_client_disconnect`, `est_client.c` lines 2915-2950. -/
def disconnect (c : Ctx) (ssl : Option Ssl) (ses : Ses) : Mem Ctx := do
  match ssl with
  | none => pure c
  | some s =>
    use (some s.obj)
    let c ← keepSession c ses
    sslFree (some s)
    pure c

/-- `SSL_set_session`, when the context holds a session.  Called in `est_client.c` lines
2770-2905. -/
def offerSession : Option Nat → Mem Unit
  | none => pure ()
  | some r => use (some r)

/-- `est_client_connect`, `est_client.c` lines 2770-2905: the error and the
`SSL` left in `*ssl` (left there when the handshake fails). -/
def connect (c : Ctx) (w : Conn) : Mem (EstErr × Ctx × Option Ssl) := do
  match w.tcp with
  | some e => pure (e, c, none)
  | none =>
    match ← alloc with
    | none => pure (.ipConnect, c, none)
    | some bio =>
      use c.ssl
      match ← alloc with
      | none =>
        free (some bio)
        pure (.sslNew, c, none)
      | some s =>
        offerSession c.sess
        if !w.shake then pure (.sslConnect, c, some ⟨s, bio⟩)
        else if !w.nameOk then
          let c ← disconnect c (some ⟨s, bio⟩) w.ses
          pure (.fqdnMismatch, c, none)
        else pure (.none, c, some ⟨s, bio⟩)

/-- What a server sends back, as far as memory is concerned: nothing that can
be read; a status or header error; a body with this `Content-Length`.  The cases of
`est_client_http.c` lines 1547-1822. -/
inductive Resp
  | unread (e : EstErr)
  | error (e : EstErr)
  | body (len : Nat)
deriving DecidableEq, Repr

/-- `est_io_get_response`, `est_client_http.c` lines 1547-1822 and 1834-1838, operations
other than key generation: the error and the buffer given to the caller.
`parse_http_headers` (its table may fail to be allocated, then there are no
headers and `est_io_check_http_hdrs` refuses the response) is part of it. -/
def getResponse (r : Resp) : Mem (EstErr × Option Nat) := do
  match ← alloc with
  | none => pure (.malloc, none)
  | some raw =>
    match r with
    | .unread e =>
      free (some raw)
      pure (e, none)
    | .error e =>
      let hdrs ← alloc
      free (some raw)
      free hdrs
      pure (e, none)
    | .body len =>
      match ← alloc with
      | none =>
        free (some raw)
        pure (.badContentType, none)
      | some hdrs =>
        if len = 0 then
          free (some raw)
          free (some hdrs)
          pure (.none, none)
        else
          match ← alloc with
          | none =>
            free (some raw)
            free (some hdrs)
            pure (.malloc, none)
          | some buf =>
            use (some raw)
            free (some raw)
            free (some hdrs)
            pure (.none, some buf)

/-- A request: whether the header needs a digest; whether the header can be
built otherwise; whether it can be written; the answer.  The cases of `est_client.c`
lines 1321-1400, 1542-1695 and 2961-3105. -/
structure Send where
  digest : Bool
  hdrOk : Bool
  writeOk : Bool
  resp : Resp
deriving DecidableEq, Repr

/-- Building the header, `est_client.c` lines 1050-1240
(`est_client_add_auth_hdr`), 895-975 (`est_client_generate_auth_digest`): the
digest is allocated, written into the header and released. -/
def buildHeader (s : Send) (http : Nat) : Mem Bool := do
  use (some http)
  if s.digest then
    match ← alloc with
    | none => pure false
    | some d =>
      free (some d)
      pure s.hdrOk
  else pure s.hdrOk

/-- What OpenSSL makes of a buffer of CA certificates.  `content`: the `PKCS7` has its
content, which is optional in the ASN.1 of a `PKCS7`; without it the pointer `d.sign`
is `NULL`.  The cases of `est_client.c` lines 268-450 and 495-638. -/
structure Verify where
  parses : Bool
  content : Bool
  certs : Bool
  ctxOk : Bool
  crls : Bool
  crlsOk : Bool
  chainOk : Bool
deriving DecidableEq, Repr

/-- `est_client_remove_crls`, `est_client.c` lines 268-362, on a structure that
has certificates. -/
def removeCrls (v : Verify) (buf : Option Nat) : Mem EstErr := do
  if v.crls then
    match ← alloc with
    | none => pure .malloc
    | some b64 =>
      match ← alloc with
      | none => pure .malloc
      | some out =>
        use buf
        free (some b64)
        free (some out)
        if v.crlsOk then pure .none else pure .cacertVerification
  else pure .none

/-- `verify_cacert_resp`, `est_client.c` lines 495-638, with
`b64_decode_cacerts`, `create_PKCS7` and `PKCS7_to_stack` (370-475).  `PKCS7_to_stack`
reads `d.sign->cert` without looking whether `d.sign` is `NULL`. -/
def verifyResp (v : Verify) (buf : Option Nat) : Mem EstErr := do
  match ← alloc with
  | none => pure .malloc
  | some b64 =>
    match ← alloc with
    | none =>
      free (some b64)
      pure .malloc
    | some inp =>
      match ← alloc with
      | none =>
        free (some b64)
        free (some inp)
        pure .malloc
      | some dec =>
        use buf
        free (some b64)
        free (some inp)
        match ← alloc with
        | none =>
          free (some dec)
          pure .malloc
        | some bio =>
          let p7 ← allocIf v.parses
          free (some bio)
          match p7 with
          | none =>
            free (some dec)
            pure .loadCacerts
          | some p7 =>
            if !v.content then undef
            else if !v.certs then
              free (some dec)
              free (some p7)
              pure .cacertVerification
            else
              match ← alloc with
              | none =>
                free (some dec)
                free (some p7)
                pure .malloc
              | some store =>
                match ← alloc with
                | none =>
                  free (some dec)
                  free (some p7)
                  free (some store)
                  pure .malloc
                | some sctx =>
                  if !v.ctxOk then
                    free (some dec)
                    free (some p7)
                    free (some store)
                    free (some sctx)
                    pure .malloc
                  else
                    let e ← removeCrls v buf
                    free (some dec)
                    free (some store)
                    free (some sctx)
                    free (some p7)
                    if v.chainOk then pure e else pure .cacertVerification

/-- `EST_CA_MAX`, `est_locl.h`.  `est_locl.h` line 68. -/
def caMax : Nat := 2000000

/-- The part of `est_client_send_cacerts_request` that handles a response
received without error, `est_client.c` lines 3030-3085. -/
def storeCacerts (c : Ctx) (v : Verify) (len : Nat) (buf : Option Nat) : Mem (EstErr × Ctx) := do
  if len = 0 then pure (.zeroLengthBuf, c)
  else if len + 1 > caMax then pure (.bufExceedsMaxLen, c)
  else
    free c.cacerts
    match ← alloc with
    | none => pure (.malloc, { c with cacerts := none })
    | some p =>
      use (some p)
      copy (some p) buf
      match ← verifyResp v (some p) with
      | .none => pure (.none, { c with cacerts := some p })
      | e =>
        free (some p)
        pure (e, { c with cacerts := none })

/-- The `switch` on the result of the exchange, `est_client.c` lines 3027-3092. -/
def keepCacerts (c : Ctx) (v : Verify) (len : Nat) (e : EstErr) (buf : Option Nat) :
    Mem (EstErr × Ctx) :=
  match e with
  | .none => storeCacerts c v len buf
  | e => pure (e, c)

/-- The length that goes with a response.  cert_buf_len of `est_client_http.c` lines
1764-1803. -/
def Resp.len : Resp → Nat
  | .body n => n
  | _ => 0

/-- `est_client_send_cacerts_request`, `est_client.c` lines 2961-3105. -/
def sendCacerts (c : Ctx) (s : Send) (v : Verify) : Mem (EstErr × Ctx) := do
  match ← alloc with
  | none => pure (.malloc, c)
  | some http =>
    if !(← buildHeader s http) then
      free (some http)
      pure (.httpCannotBuildHeader, c)
    else if !s.writeOk then
      free (some http)
      pure (.sslWrite, c)
    else
      let (e, buf) ← getResponse s.resp
      let (e, c) ← keepCacerts c v s.resp.len e buf
      free (some http)
      free buf
      pure (e, c)

/-- `est_client_get_cacerts`, `est_client.c` lines 3928-3963; `ses` is the
session found at the end of the connection. -/
def getCacerts (c : Ctx) (w : Conn) (s : Send) (v : Verify) (ses : Ses) : Mem (EstErr × Ctx) := do
  if !c.ready then pure (.clientNotInitialized, c)
  else
    let (e, c, ssl) ← connect c w
    match e with
    | .none =>
      let (e, c) ← sendCacerts c s v
      let c ← disconnect c ssl ses
      pure (e, c)
    | e =>
      sslFree ssl
      pure (e, c)

/-- `est_client_copy_cacerts`, `est_client.c` lines 3985-4016.  The buffer
stays in the context and the context is no longer initialised. -/
def copyCacerts (c : Ctx) : Mem (EstErr × Ctx) := do
  if !c.ready then pure (.clientNotInitialized, c)
  else match c.cacerts with
    | none => pure (.noCertificate, c)
    | some p =>
      use (some p)
      pure (.none, { c with ready := false })

/-- `est_client_send_csrattrs_request`, `est_client.c` lines 1321-1400. -/
def sendCsrattrs (s : Send) : Mem (EstErr × Option Nat) := do
  match ← alloc with
  | none => pure (.malloc, none)
  | some http =>
    if !(← buildHeader s http) then
      free (some http)
      pure (.httpCannotBuildHeader, none)
    else if !s.writeOk then
      free (some http)
      pure (.sslWrite, none)
    else
      let (e, buf) ← getResponse s.resp
      match e with
      | .none =>
        free (some http)
        pure (.none, buf)
      | e =>
        free buf
        free (some http)
        pure (e, none)

/-- `est_client_get_csrattrs`, `est_client.c` lines 4047-4150; `attrsOk`:
`est_asn1_parse_attributes` accepts the text. -/
def getCsrattrs (c : Ctx) (w : Conn) (s : Send) (attrsOk : Bool) (ses : Ses) :
    Mem (EstErr × Ctx) := do
  let (e, c, ssl) ← connect c w
  match e with
  | .none =>
    free c.csrattrs
    let c := { c with csrattrs := none }
    let (e, data) ← sendCsrattrs s
    let c ← disconnect c ssl ses
    match e with
    | .none => match data with
      | none => pure (.none, c)
      | some d =>
        match ← alloc with
        | none =>
          free (some d)
          pure (.malloc, c)
        | some p =>
          copy (some p) (some d)
          use (some p)
          free (some d)
          if attrsOk then pure (.none, { c with csrattrs := some p })
          else
            free (some p)
            pure (.badAsn1Hex, c)
    | e =>
      free data
      pure (e, c)
  | e =>
    sslFree ssl
    pure (e, c)

/-- The length of the received key and certificate against the limits
(`EST_MIN_CLIENT_PKEY_LEN`, `EST_MIN_CLIENT_CERT_LEN`, `EST_MAX_CLIENT_PKEY_LEN`,
`EST_MAX_CLIENT_CERT_LEN`).  The comparisons of `est_client_http.c` lines 1741-1749
and `est_client.c` lines 1652-1675. -/
inductive Size | short | fits | certLong | keyLong
deriving DecidableEq, Repr

/-- An answer to a key generation request: nothing that can be read; headers
that `parse_and_split_keygen_rsp` refuses; a status other than 200; no
multipart header at all; a multipart body with this many part headers (name
and value strings together), telling whether both parts were found and how
long they are.  The cases of `est_client_http.c` lines 1547-1822. -/
inductive KResp
  | unread (e : EstErr)
  | badHeaders
  | status (e : EstErr)
  | plain
  | parts (hdrs : Nat) (both : Bool) (size : Size)
deriving DecidableEq, Repr

/-- The strings that `read_header_name` and `read_header_value`
(`est_client_http.c` lines 919-935) allocate for the headers of the parts.  The
result of `malloc` is used unchecked.  Nothing releases them. -/
def headerStrings : Nat → Mem Unit
  | 0 => pure ()
  | n + 1 => do
    let s ← alloc
    use s
    headerStrings n

/-- The check that both buffers are there, `est_client_http.c` lines 1712-1750:
when exactly one of the two could be allocated, it is released. -/
def pairCheck (both : Bool) (size : Size) (key cert : Option Nat) : Mem EstErr :=
  if !both then pure .zeroLengthBuf
  else match key, cert with
    | some k, some _ => do
      use (some k)
      if size = .short then pure .zeroLengthBuf else pure .none
    | none, none => pure .none
    | some k, none => do
      free (some k)
      pure .multipartParse
    | none, some x => do
      free (some x)
      pure .multipartParse

/-- `est_io_get_multipart_response`, `est_client_http.c` lines 1547-1822 and 1849-1855, 1849-1860 with
`op` key generation, `parse_remaining_multipart_payload` (993-1026) and
`multipart_parser.c`: the error, whether lengths were stored, the key buffer and
the certificate buffer.  At
lines 1725-1739, when exactly one of the two buffers could be allocated, it is
released and the pointer to it is still returned. -/
def getMultipart (r : KResp) : Mem (EstErr × Bool × Option Nat × Option Nat) := do
  match ← alloc with
  | none => pure (.malloc, false, none, none)
  | some raw =>
    match r with
    | .unread e =>
      free (some raw)
      pure (e, false, none, none)
    | r =>
      match ← alloc with
      | none =>
        free (some raw)
        pure (.multipartParse, false, none, none)
      | some hdrs =>
        match r with
        | .unread e =>
          free (some hdrs)
          free (some raw)
          pure (e, false, none, none)
        | .badHeaders =>
          free (some hdrs)
          free (some raw)
          pure (.multipartParse, false, none, none)
        | .status e =>
          free (some raw)
          free (some hdrs)
          pure (e, false, none, none)
        | .plain =>
          free (some raw)
          free (some hdrs)
          pure (.none, false, none, none)
        | .parts n both size =>
          let parser ← alloc
          use parser
          headerStrings n
          let key ← alloc
          let cert ← alloc
          free parser
          let e ← pairCheck both size key cert
          free (some raw)
          free (some hdrs)
          pure (e, both, key, cert)

/-- A received certificate: not a `PKCS7`, a `PKCS7` of a type with certificates but
without its content (`d.sign` is then `NULL`), or one with certificates.  The cases of
`est_client.c` lines 1841-1865 and 1904-1927. -/
inductive Pkcs7 | bad | empty | good
deriving DecidableEq, Repr

/-- Enrolment: which operation, and what is received.  `keyOk` and `cert`:
the received key can be parsed, and the certificate; `match_`: they belong
together.  (The response in `Send` is for the other operations.)  The cases of
`est_client.c` lines 1579-1600 and 1890-1985. -/
inductive Ask
  | enroll (resp : Resp)
  | keygen (resp : KResp) (cert : Pkcs7) (keyOk match_ : Bool)
deriving DecidableEq, Repr

/-- `EST_MAX_CLIENT_CERT_LEN`, `est.h` line 46; used
at `est_client.c` line 1657. -/
def certMax : Nat := 4096

/-- The size that goes with an answer.  `est_client_http.c` lines 1741-1749 and
`est_client.c` lines 1652-1675. -/
def KResp.size : KResp → Size
  | .parts _ _ z => z
  | _ => .short

/-- The response to an enrolment is copied to the caller's buffer,
`est_client.c` lines 1635-1645. -/
def takeCert (len : Nat) (e : EstErr) (pkcs7 cert : Option Nat) : Mem EstErr :=
  match e with
  | .none =>
    if len = 0 then pure .zeroLengthBuf
    else if len > certMax then pure .bufExceedsMaxLen
    else do
      copy pkcs7 cert
      pure .none
  | e => pure e

/-- The response to a key generation is copied to the caller's buffers,
`est_client.c` lines 1635-1660. -/
def takePair (full : Bool) (size : Size) (e : EstErr) (pkcs7 newKey cert key : Option Nat) :
    Mem EstErr :=
  match e with
  | .none =>
    if !full then pure .zeroLengthBuf
    else if size = .certLong then pure .bufExceedsMaxLen
    else do
      copy pkcs7 cert
      if size = .keyLong then pure .bufExceedsMaxLen
      else do
        copy newKey key
        pure .none
  | e => pure e

/-- Reading the response to an enrolment or a key generation, `est_client.c`
lines 1618-1680: the buffers are released after they were copied. -/
def receive (a : Ask) (pkcs7 newKey : Option Nat) : Mem EstErr :=
  match a with
  | .enroll r => do
    let (e, cert) ← getResponse r
    let e ← takeCert r.len e pkcs7 cert
    free cert
    pure e
  | .keygen r _ _ _ => do
    let (e, full, key, cert) ← getMultipart r
    let e ← takePair full r.size e pkcs7 newKey cert key
    free cert
    free key
    pure e

/-- `est_client_send_enroll_request_internal`, `est_client.c` lines 1542-1695:
the error; `pkcs7` and `newKey` are the caller's buffers. -/
def sendEnroll (s : Send) (a : Ask) (pkcs7 newKey : Option Nat) : Mem EstErr := do
  match ← alloc with
  | none => pure .malloc
  | some http =>
    if !(← buildHeader s http) then
      free (some http)
      pure .httpCannotBuildHeader
    else if !s.writeOk then
      free (some http)
      pure .sslWrite
    else
      let e ← receive a pkcs7 newKey
      free (some http)
      pure e

/-- `est_client_verify_key_and_cert`, `est_client.c` lines 1890-1985, with
`est_client_get_pkcs7_from_buf` and `est_client_get_pkey_from_buf` (1841-1885):
the decoded certificate (its allocation is unchecked; the decoder answers 0 for
a `NULL` buffer) and the `PKCS7` are never released, the decoded key only when it cannot be
parsed.  `d.sign->cert` is read without looking whether `d.sign` is `NULL`. -/
def verifyKey (p7 : Pkcs7) (keyOk match_ : Bool) (cert key : Option Nat) : Mem Bool := do
  let dec ← alloc
  use cert
  match ← allocIf (p7 != .bad && dec.isSome) with
  | none => pure false
  | some _ =>
    if p7 = .empty then undef
    else match ← alloc with
    | none => pure false
    | some decKey =>
      use key
      let pk ← allocIf keyOk
      match pk with
      | none =>
        free (some decKey)
        pure false
      | some pk =>
        match ← alloc with
        | none =>
          free (some pk)
          pure false
        | some test =>
          free (some test)
          free (some pk)
          pure match_

/-- The certificate is put into the context, `est_client.c` lines 2072-2095. -/
def storeCert (c : Ctx) (e : EstErr) : Mem (EstErr × Ctx) :=
  match e with
  | .none => do
    free c.cert
    match ← alloc with
    | none => pure (.malloc, { c with cert := none })
    | some p =>
      use (some p)
      pure (.none, { c with cert := some p })
  | e => pure (e, c)

/-- The certificate and the key are put into the context and checked against
each other, `est_client.c` lines 2072-2130. -/
def storePair (c : Ctx) (p7 : Pkcs7) (keyOk match_ : Bool) (e : EstErr) : Mem (EstErr × Ctx) :=
  match e with
  | .none => do
    free c.cert
    match ← alloc with
    | none => pure (.malloc, { c with cert := none })
    | some p =>
      use (some p)
      free c.key
      match ← alloc with
      | none => pure (.malloc, { c with cert := some p, key := none })
      | some k =>
        use (some k)
        let good ← verifyKey p7 keyOk match_ (some p) (some k)
        pure (if good then EstErr.none else EstErr.validation,
          { c with cert := some p, key := some k })
  | e => pure (e, c)

/-- `est_client_enroll_req`, `est_client.c` lines 2000-2150.  `req` is the
signing request.  Several early returns leave the `BIO`s behind. -/
def enrollReq (c : Ctx) (s : Send) (a : Ask) (req : Option Nat) : Mem (EstErr × Ctx) := do
  match ← alloc with
  | none => pure (.malloc, c)
  | some b64 =>
    match ← alloc with
    | none => pure (.malloc, c)
    | some p10 =>
      use req
      match a with
      | .enroll _ =>
        match ← alloc with
        | none => pure (.malloc, c)
        | some recv =>
          let e ← sendEnroll s a (some recv) none
          let (e, c) ← storeCert c e
          free (some recv)
          free (some b64)
          free (some p10)
          pure (e, c)
      | .keygen _ p7 keyOk match_ =>
        match ← alloc with
        | none => pure (.malloc, c)
        | some certBuf =>
          match ← alloc with
          | none =>
            free (some certBuf)
            pure (.malloc, c)
          | some keyBuf =>
            let e ← sendEnroll s a (some certBuf) (some keyBuf)
            let (e, c) ← storePair c p7 keyOk match_ e
            free (some certBuf)
            free (some keyBuf)
            free (some b64)
            free (some p10)
            pure (e, c)

/-- `est_get_tls_uid`, `est.c` lines 1070-1151; `short`: the finished message
is not too long. -/
def tlsUid (short : Bool) : Mem (Option Nat) := do
  match ← alloc with
  | none => pure none
  | some b64 =>
    match ← alloc with
    | none => pure none
    | some bio =>
      if short then
        let u ← alloc
        free (some b64)
        free (some bio)
        pure u
      else
        free (some b64)
        free (some bio)
        pure none

/-- How the request to be sent is obtained: `cn`: built by the library around a
common name; `csr`: given by the application and sent as it is (`key` false) or
after removing the old and adding the new channel binding and signing.  The callers of
est_client_enroll_req, `est_client.c` lines 2168-2272. -/
inductive How
  | cn (short csrOk : Bool)
  | csr (pop short attrOk signOk key : Bool)
deriving DecidableEq, Repr

/-- One attempt at an enrolment over an open connection: `est_client_enroll_cn`
(`est_client.c` lines 2235-2272, with `est_generate_pkcs10` 181-220),
`est_client_enroll_pkcs10` (2168-2210) or `est_client_enroll_req`. -/
def attempt (c : Ctx) (h : How) (s : Send) (a : Ask) (req : Option Nat) : Mem (EstErr × Ctx) := do
  match h with
  | .cn short csrOk =>
    match ← tlsUid short with
    | none => pure (.authFailTlsuid, c)
    | some uid =>
      let p10 ← alloc
      match p10 with
      | none =>
        free (some uid)
        pure (.malloc, c)
      | some p =>
        if !csrOk then
          free (some p)
          free (some uid)
          pure (.x509Sign, c)
        else
          free (some uid)
          let (e, c) ← enrollReq c s a (some p)
          free (some p)
          pure (e, c)
  | .csr pop short attrOk signOk key =>
    if !key then enrollReq c s a req
    else
      use req
      if pop then
        match ← tlsUid short with
        | none => pure (.authFailTlsuid, c)
        | some uid =>
          free (some uid)
          if !attrOk then pure (.x509Attr, c)
          else if !signOk then pure (.x509Sign, c)
          else enrollReq c s a req
      else if !signOk then pure (.x509Sign, c)
      else enrollReq c s a req

/-- A connection and one attempt over it.  One round of `est_client.c` lines 3147-3230. -/
structure Try where
  conn : Conn
  how : How
  send : Send
  ask : Ask
  ses : Ses
deriving DecidableEq, Repr

/-- What follows an attempt: `retry` tells whether the authentication mode the
server asked for leads to a second attempt (`AUTH_DIGEST` outside FIPS mode,
`AUTH_BASIC`, `AUTH_TOKEN`), and how the second one goes.  The cases of `est_client.c`
lines 3147-3230, 3556-3632 and 3638-3708. -/
structure Exchange where
  first : Try
  retry : Bool
  second : Try
deriving DecidableEq, Repr

/-- The common part of `est_client_enroll_internal` (`est_client.c` lines 3147-3230),
`est_client_reenroll` (3556-3632) and `est_client_enroll_csr_internal`
(3638-3708): connect, attempt, disconnect, and once more after a failed
authentication. -/
def exchange (c : Ctx) (x : Exchange) (req : Option Nat) : Mem (EstErr × Ctx) := do
  let (e, c, ssl) ← connect c x.first.conn
  match e with
  | .none =>
    let (e, c) ← attempt c x.first.how x.first.send x.first.ask req
    let c ← disconnect c ssl x.first.ses
    if e = .authFail ∧ x.retry then
      let (e, c, ssl) ← connect c x.second.conn
      match e with
      | .none =>
        let (e, c) ← attempt c x.second.how x.second.send x.second.ask req
        let c ← disconnect c ssl x.second.ses
        pure (e, c)
      | e =>
        sslFree ssl
        pure (e, c)
    else pure (e, c)
  | e =>
    sslFree ssl
    pure (e, c)

/-- `est_client_enroll_internal` and `est_client_enroll_csr_internal`: `app` is
the application's signing request (not looked at for an enrolment by common
name).  `est_client.c` lines 3152-3230 and 3640-3708. -/
def enroll (c : Ctx) (x : Exchange) (app : Nat) : Mem (EstErr × Ctx) := do
  if !c.ready then pure (.clientNotInitialized, c)
  else exchange c x (some app)

/-- `est_client_reenroll`, `est_client.c` lines 3484-3632: the certificate is
turned into a request, which is released at the end.  `extOk`: the extensions
can be copied; if not, the function ends with the error code of the check
before, which is `EST_ERR_NONE`. -/
def reenroll (c : Ctx) (x : Exchange) (extOk : Bool) : Mem (EstErr × Ctx) := do
  if !c.ready then pure (.clientNotInitialized, c)
  else match ← alloc with
    | none => pure (.noCsr, c)
    | some req =>
      if !extOk then
        free (some req)
        pure (.none, c)
      else
        let (e, c) ← exchange c x (some req)
        free (some req)
        pure (e, c)

/-- `est_client_copy_enrolled_cert`, `est_client.c` lines 3817-3850. -/
def copyCert (c : Ctx) : Mem (EstErr × Ctx) := do
  if !c.ready then pure (.clientNotInitialized, c)
  else match c.cert with
    | none => pure (.noCertificate, c)
    | some p =>
      use (some p)
      free (some p)
      pure (.none, { c with cert := none })

/-- `est_client_copy_server_generated_key`, `est_client.c` lines 3869-3905. -/
def copyKey (c : Ctx) : Mem (EstErr × Ctx) := do
  if !c.ready then pure (.clientNotInitialized, c)
  else match c.key with
    | none => pure (.noKey, c)
    | some p =>
      use (some p)
      free (some p)
      pure (.none, { c with key := none })

/-- What `est_client_provision_cert` meets: the CA certificates, their
conversion (`pemOk`) and loading (`loadOk`), the attributes, the enrolment.
`est_client.c` lines 3344-3440. -/
structure Provision where
  caConn : Conn
  caSend : Send
  caVerify : Verify
  caSes : Ses
  pemOk : Bool
  loadOk : Bool
  attrConn : Conn
  attrSend : Send
  attrOk : Bool
  attrSes : Ses
  enrol : Exchange
deriving DecidableEq, Repr

/-- `est_client_provision_cert`, `est_client.c` lines 3345-3440.
`est_convert_p7b64_to_pem` either gives a block or fails; its temporary
objects are not modelled. -/
def provision (c : Ctx) (app : Nat) (p : Provision) : Mem (EstErr × Ctx) := do
  if !c.ready then pure (.clientNotInitialized, c)
  else
    let (e, c) ← getCacerts c p.caConn p.caSend p.caVerify p.caSes
    match e with
    | .none =>
      match ← alloc with
      | none => pure (.malloc, c)
      | some ta =>
        use (some ta)
        let (e, c) ← copyCacerts c
        match e with
        | .none =>
          let pem ← allocIf p.pemOk
          free (some ta)
          match pem with
          | none => pure (.pemRead, c)
          | some pem =>
            free c.store
            let c := { c with store := none }
            match ← alloc with
            | none =>
              free (some pem)
              pure (.loadTrustCerts, c)
            | some st =>
              let c := { c with store := some st }
              use (some pem)
              free (some pem)
              if !p.loadOk then pure (.loadTrustCerts, c)
              else
                let c := { c with ready := true }
                let (e, c) ← getCsrattrs c p.attrConn p.attrSend p.attrOk p.attrSes
                if e = .none ∨ e = .httpNoContent then enroll c p.enrol app
                else pure (e, c)
        | e =>
          free (some ta)
          pure (e, c)
    | e => pure (e, c)

/-- The calls an application can make on a context.  The signing request given
to `enroll` belongs to the application.  Every exchange may be of every kind,
which is more than the public functions allow.  The functions of `est_client.c` lines
3260-4150 and 4569-4635. -/
inductive Op
  | setSegment
  | getCacerts (w : Conn) (s : Send) (v : Verify) (ses : Ses)
  | copyCacerts
  | getCsrattrs (w : Conn) (s : Send) (attrsOk : Bool) (ses : Ses)
  | enroll (x : Exchange)
  | reenroll (x : Exchange) (extOk : Bool)
  | copyCert
  | copyKey
  | provision (p : Provision)
deriving DecidableEq, Repr

/-- One call.  `app` is the application's signing request.  The functions of
`est_client.c` lines 3260-4150 and 4569-4635. -/
def call (c : Ctx) (app : Nat) : Op → Mem (EstErr × Ctx)
  | .setSegment => setSegment c
  | .getCacerts w s v ses => getCacerts c w s v ses
  | .copyCacerts => copyCacerts c
  | .getCsrattrs w s a ses => getCsrattrs c w s a ses
  | .enroll x => enroll c x app
  | .reenroll x e => reenroll c x e
  | .copyCert => copyCert c
  | .copyKey => copyKey c
  | .provision p => provision c app p

/-- A sequence of calls.  The functions of `est_client.c` lines 3260-4150 and 4569-4635,
one after the other. -/
def calls (c : Ctx) (app : Nat) : List Op → Mem Ctx
  | [] => pure c
  | op :: ops => do
    let (_, c) ← call c app op
    calls c app ops

/-- The life of a context: created, used, destroyed.  A context that could not
be created is not used.  `est_client.c` lines 4453-4545, then calls, then `est.c`
lines 743-835. -/
def life (i : InitIn) (app : Nat) (ops : List Op) : Mem Unit := do
  match ← init i with
  | none => pure ()
  | some c =>
    let c ← calls c app ops
    destroy c

end Verif.ClientMem
