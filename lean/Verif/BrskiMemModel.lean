import Verif.ClientMemModel

/-!
# The memory of the BRSKI calls of the client

The blocks a client context owns in BRSKI mode, and what
`est_client_brski_get_voucher`, `est_client_brski_copy_cacert`,
`est_client_brski_send_voucher_status` and `est_client_brski_send_enroll_status`
(`est_client.c` lines 5090-6567) do with them, on the heap of `ClientMemModel`.

Left out: the arguments that are refused before anything is allocated, arrays on
the stack, and what the buffers contain.
-/
namespace Verif.BrskiMem

open ClientMem

/-- A client context in BRSKI mode: the pointers of `ClientMem.Ctx` and
`brski_retrieved_voucher`, `brski_retrieved_cacert`, `client_cert_ser_num`
(`est_locl.h` lines 389-578). -/
structure Ctx where
  base : ClientMem.Ctx
  voucher : Option Nat
  cacert : Option Nat
  serial : Option Nat
deriving DecidableEq, Repr

/-- What OpenSSL says while the certificate of the registrar is turned into text:
there is one; the version can be set; the text can be read back; the structure can be
encoded; something was written.  The cases of `est_client.c` lines 5567-5726. -/
structure PeerIn where
  given : Bool
  version : Bool
  readable : Bool
  encoded : Bool
  written : Bool
deriving DecidableEq, Repr

/-- `ossl_add_certs_from_BIO`, `est_client.c` lines 5567-5598: the `BIO` is released in
every case.  The certificates are counted with the stack they are moved to. -/
def addCerts (x : PeerIn) (pem : Nat) : Mem Bool := do
  use (some pem)
  let sk ← allocIf x.readable
  free (some pem)
  free sk
  pure sk.isSome

/-- The end of `ossl_get_certs_pkcs7`, `est_client.c` lines 5645-5670: the two `BIO`s of
the result. -/
def writeP7 (x : PeerIn) : Mem (Option (Nat × Nat)) := do
  match ← alloc with
  | none => pure none
  | some b64 =>
    match ← alloc with
    | none =>
      free (some b64)
      pure none
    | some out =>
      if x.encoded then pure (some (b64, out))
      else
        free (some b64)
        free (some out)
        pure none

/-- `ossl_get_certs_pkcs7`, `est_client.c` lines 5607-5670.  The `BIO` that is handed in is
released by `ossl_add_certs_from_BIO` only, so it is lost when an earlier step fails. -/
def certsP7 (x : PeerIn) (pem : Nat) : Mem (Option (Nat × Nat)) := do
  match ← alloc with
  | none => pure none
  | some p7 =>
    match ← alloc with
    | none =>
      free (some p7)
      pure none
    | some p7s =>
      if !x.version then
        free (some p7s)
        free (some p7)
        pure none
      else
        match ← alloc with
        | none =>
          free (some p7s)
          free (some p7)
          pure none
        | some stack =>
          if ← addCerts x pem then
            let r ← writeP7 x
            free (some stack)
            free (some p7s)
            free (some p7)
            pure r
          else
            free (some stack)
            free (some p7s)
            free (some p7)
            pure none

/-- `est_brski_get_server_cert`, `est_client.c` lines 5678-5726, into the buffer
`server`.  `SSL_get_peer_certificate` gives a reference, which is lost when the `BIO`
cannot be allocated. -/
def serverCert (x : PeerIn) (server : Nat) : Mem EstErr := do
  if !x.given then pure .loadCacerts
  else
    let peer ← newRef
    match ← alloc with
    | none => pure .loadCacerts
    | some pem =>
      use (some peer)
      free (some peer)
      match ← certsP7 x pem with
      | none => pure .loadCacerts
      | some (b64, out) =>
        if !x.written then
          free (some b64)
          free (some out)
          pure .loadCacerts
        else
          copy (some server) (some out)
          free (some b64)
          free (some out)
          pure .none

/-- Storing the received voucher, `est_client.c` lines 5190-5225. -/
def storeVoucher (b : Ctx) (tooLong : Bool) : Option Nat → Mem (EstErr × Ctx)
  | none => pure (.zeroLengthBuf, b)
  | some buf =>
    if tooLong then pure (.bufExceedsMaxLen, b)
    else do
      free b.voucher
      match ← alloc with
      | none => pure (.malloc, { b with voucher := none })
      | some v =>
        copy (some v) (some buf)
        pure (.none, { b with voucher := some v })

/-- A request for a voucher: how it is sent and answered; whether it fits into the
buffer; whether the voucher is longer than `EST_CA_MAX`.  The cases of `est_client.c`
lines 5108-5246. -/
structure Ask where
  send : Send
  fits : Bool
  tooLong : Bool
deriving DecidableEq, Repr

/-- `est_client_brski_send_voucher_request`, `est_client.c` lines 5108-5246.  Whether the
header could be built is not looked at. -/
def sendVoucher (b : Ctx) (a : Ask) : Mem (EstErr × Ctx) := do
  match ← alloc with
  | none => pure (.malloc, b)
  | some http =>
    let _ ← buildHeader a.send http
    if !a.fits then
      free (some http)
      pure (.syscall, b)
    else if !a.send.writeOk then
      free (some http)
      pure (.sslWrite, b)
    else
      let (e, buf) ← getResponse a.send.resp
      match e with
      | .none =>
        let (e, b) ← storeVoucher b a.tooLong buf
        free (some http)
        free buf
        pure (e, b)
      | e =>
        free (some http)
        free buf
        pure (e, b)

/-- What the received bytes are: no `PKCS7`; a `PKCS7` although there is no trust store;
one that `PKCS7_verify` refuses; one that it accepts and whose content is of the type
`data`, or of another type (`PKCS7_verify` accepts an octet string of any type).  The
cases of `est_client.c` lines 5257-5323. -/
inductive Signed
  | garbage
  | noStore
  | refused
  | otherType
  | plain
deriving DecidableEq, Repr

/-- `create_PKCS7`, `est_client.c` lines 418-447: the structure and the block in it that
holds the signed bytes. -/
def createP7 (s : Signed) (voucher : Option Nat) : Mem (Option (Nat × Nat)) := do
  match ← alloc with
  | none => pure none
  | some bio =>
    use voucher
    let p7 ← allocIf (s ≠ .garbage)
    match p7 with
    | none =>
      free (some bio)
      pure none
    | some p7 =>
      match ← alloc with
      | none =>
        free (some p7)
        free (some bio)
        pure none
      | some body =>
        free (some bio)
        pure (some (p7, body))

/-- `verify_voucher`, `est_client.c` lines 5257-5323 (`BASE64_ENCODE_VOUCHERS` is not
defined).  The structure is never released.  When it is accepted the context's pointer
to the received voucher is replaced by the pointer to the signed bytes.  Content of
another type is read as if it were an `ASN1_OCTET_STRING`, which is undefined. -/
def verifyVoucher (b : Ctx) (s : Signed) : Mem (EstErr × Ctx) := do
  match ← createP7 s b.voucher with
  | none => pure (.loadCacerts, b)
  | some (_, body) =>
    match s with
    | .noStore => pure (.loadTrustCerts, b)
    | .otherType => undef
    | .plain => pure (.none, { b with voucher := some body })
    | _ => pure (.clientBrskiVoucherVerifyFailed, b)

/-- A voucher: the signature; the error found in the text before the certificate is
stored, if any; whether the certificate can be copied; what `verify_cacert_resp` makes of
it.  The cases of `est_client.c` lines 5368-5560. -/
structure VoucherIn where
  signed : Signed
  early : Option EstErr
  copied : Bool
  verify : Verify
deriving DecidableEq, Repr

/-- Storing the certificate of the voucher, `est_client.c` lines 5517-5559. -/
def storeCert (b : Ctx) (v : VoucherIn) : Mem (EstErr × Ctx) := do
  free b.cacert
  match ← alloc with
  | none => pure (.malloc, { b with cacert := none })
  | some p =>
    if !v.copied then
      free (some p)
      pure (.syscall, { b with cacert := none })
    else
      match ← verifyResp v.verify (some p) with
      | .none => pure (.none, { b with cacert := some p })
      | e =>
        free (some p)
        pure (e, { b with cacert := none })

/-- `brski_parse_voucher`, `est_client.c` lines 5368-5560.  The serial number of the
context is read when the voucher has one. -/
def parseVoucher (b : Ctx) (v : VoucherIn) : Mem (EstErr × Ctx) := do
  let (e, b) ← verifyVoucher b v.signed
  match e with
  | .none =>
    match ← alloc with
    | none => pure (.malloc, b)
    | some tok =>
      use b.voucher
      match v.early with
      | some e =>
        free (some tok)
        pure (e, b)
      | none =>
        use b.serial
        let (e, b) ← storeCert b v
        free (some tok)
        pure (e, b)
  | e => pure (e, b)

/-- One round with the registrar: the connection; whether random bytes and the time can be
had; the certificate and the request; whether the answer leads to a second request with
credentials (`retry`), and whether digests are forbidden (`fips`); the second
connection; the voucher.  The cases of `est_client.c` lines 5781-5939. -/
structure Round where
  conn : Conn
  random : Bool
  clock : Bool
  peer : PeerIn
  ask : Ask
  ses : Ses
  retry : Bool
  fips : Bool
  conn2 : Conn
  peer2 : PeerIn
  ask2 : Ask
  ses2 : Ses
  voucher : VoucherIn
deriving DecidableEq, Repr

/-- The end of `est_client_brski_send_get_voucher`, `est_client.c` lines 5911-5938, when
the connection is closed. -/
def finish (b : Ctx) (x : Round) (e : EstErr) (server : Nat) : Mem (EstErr × Ctx) := do
  match e with
  | .none =>
    let (e, b) ← parseVoucher b x.voucher
    free (some server)
    pure (e, b)
  | e =>
    free (some server)
    pure (e, b)

/-- The second request of `est_client_brski_send_get_voucher`, `est_client.c` lines
5870-5938. -/
def second (b : Ctx) (x : Round) (server : Nat) : Mem (EstErr × Ctx) := do
  if x.fips then
    free (some server)
    pure (.badMode, b)
  else
    let (e, c, ssl) ← connect b.base x.conn2
    let b := { b with base := c }
    match e with
    | .none =>
      match ← serverCert x.peer2 server with
      | .none =>
        let (e, b) ← sendVoucher b x.ask2
        let c ← disconnect b.base ssl x.ses2
        finish { b with base := c } x e server
      | e =>
        sslFree ssl
        free (some server)
        pure (e, b)
    | e =>
      sslFree ssl
      free (some server)
      pure (e, b)

/-- What follows the connection in `est_client_brski_send_get_voucher`, `est_client.c`
lines 5811-5938.  The early returns do not release the connection. -/
def connected (b : Ctx) (x : Round) (ssl : Option Ssl) : Mem (EstErr × Ctx) := do
  if !x.random then pure (.syscall, b)
  else if !x.clock then pure (.syscall, b)
  else
    match ← alloc with
    | none => pure (.malloc, b)
    | some server =>
      match ← serverCert x.peer server with
      | .none =>
        let (e, b) ← sendVoucher b x.ask
        let c ← disconnect b.base ssl x.ses
        let b := { b with base := c }
        if e = .authFail ∧ x.retry then second b x server
        else finish b x e server
      | e =>
        free (some server)
        pure (e, b)

/-- `est_client_brski_send_get_voucher`, `est_client.c` lines 5781-5939. -/
def round (b : Ctx) (x : Round) : Mem (EstErr × Ctx) := do
  let (e, c, ssl) ← connect b.base x.conn
  let b := { b with base := c }
  match e with
  | .none => connected b x ssl
  | e =>
    sslFree ssl
    pure (e, b)

/-- The serial number in the client's certificate.  The cases of `est_client.c` lines
5990-6011. -/
inductive Serial
  | noCert
  | missing
  | tooLong
  | fits
deriving DecidableEq, Repr

/-- A call of `est_client_brski_get_voucher`: the serial number and the two rounds.
`est_client.c` lines 5958-6062. -/
structure Get where
  serial : Serial
  first : Round
  again : Round
deriving DecidableEq, Repr

/-- `est_client_brski_get_voucher`, `est_client.c` lines 5958-6062.  The serial number
given by `est_find_ser_num_in_subj` (`est_ossl_util.c` lines 475-502) points into the
certificate.  When the subject cannot be written as text, the null pointer is printed. -/
def getVoucher (b : Ctx) (g : Get) : Mem (EstErr × Ctx) := do
  if !b.base.ready then pure (.clientNotInitialized, b)
  else
    match g.serial with
    | .noCert => pure (.noCert, b)
    | .missing =>
      let subj ← alloc
      use subj
      free subj
      pure (.clientBrskiSerialNumMissing, b)
    | .tooLong => pure (.clientBrskiSerialNumTooLarge, b)
    | .fits =>
      free b.serial
      match ← alloc with
      | none => pure (.malloc, { b with serial := none })
      | some s =>
        let (e, b) ← round { b with serial := some s } g.first
        if e = .caEnrollRetry then round b g.again
        else pure (e, b)

/-- `est_client_brski_copy_cacert`, `est_client.c` lines 6080-6118: the certificate is
overwritten and kept. -/
def copyCacert (b : Ctx) : Mem (EstErr × Ctx) := do
  if !b.base.ready then pure (.clientNotInitialized, b)
  else
    match b.cacert with
    | none => pure (.noCert, b)
    | some p =>
      use (some p)
      pure (.none, b)

/-- `est_io_get_response` for a status message, `est_client_http.c` lines 1547-1845: no
buffer is made for a body (lines 1752-1810). -/
def statusResponse (r : Resp) : Mem EstErr := do
  match ← alloc with
  | none => pure .malloc
  | some raw =>
    match r with
    | .unread e =>
      free (some raw)
      pure e
    | .error e =>
      let hdrs ← alloc
      free (some raw)
      free hdrs
      pure e
    | .body _ =>
      let hdrs ← alloc
      free (some raw)
      free hdrs
      pure .none

/-- `send_status`, `est_client.c` lines 6172-6267. -/
def sendStatus (a : Ask) : Mem EstErr := do
  match ← alloc with
  | none => pure .malloc
  | some http =>
    let _ ← buildHeader a.send http
    if !a.fits then
      free (some http)
      pure .syscall
    else if !a.send.writeOk then
      free (some http)
      pure .sslWrite
    else
      let e ← statusResponse a.send.resp
      free (some http)
      pure e

/-- A status message: for an enrolment, the text of the key identifier is made with
`est_base64_encode` (two `BIO`s); the connections and requests.  The cases of
`est_client.c` lines 6287-6567. -/
structure Status where
  enroll : Bool
  encoded : Bool
  conn : Conn
  ask : Ask
  ses : Ses
  retry : Bool
  fips : Bool
  conn2 : Conn
  ask2 : Ask
  ses2 : Ses
deriving DecidableEq, Repr

/-- The connections of a status message, `est_client.c` lines 6344-6397 and 6513-6566. -/
def sendTwice (b : Ctx) (x : Status) : Mem (EstErr × Ctx) := do
  let (e, c, ssl) ← connect b.base x.conn
  match e with
  | .none =>
    let e ← sendStatus x.ask
    let c ← disconnect c ssl x.ses
    if e = .authFail ∧ x.retry then
      if x.fips then pure (.badMode, { b with base := c })
      else
        let (e, c, ssl) ← connect c x.conn2
        match e with
        | .none =>
          let e ← sendStatus x.ask2
          let c ← disconnect c ssl x.ses2
          pure (e, { b with base := c })
        | e =>
          sslFree ssl
          pure (e, { b with base := c })
    else pure (e, { b with base := c })
  | e =>
    sslFree ssl
    pure (e, { b with base := c })

/-- `est_base64_encode`, `est.c` lines 986-1058: two `BIO`s; `false` when no text was
made. -/
def encodeKeyId (encoded : Bool) : Mem Bool := do
  match ← alloc with
  | none => pure false
  | some b64 =>
    match ← alloc with
    | none =>
      free (some b64)
      pure false
    | some out =>
      free (some b64)
      free (some out)
      pure encoded

/-- `est_client_brski_send_voucher_status`, `est_client.c` lines 6287-6398, and
`est_client_brski_send_enroll_status`, lines 6420-6567. -/
def status (b : Ctx) (x : Status) : Mem (EstErr × Ctx) := do
  if !b.base.ready then pure (.clientNotInitialized, b)
  else if x.enroll then
    if ← encodeKeyId x.encoded then sendTwice b x
    else pure (.invalidParameters, b)
  else sendTwice b x

/-- The calls an application can make.  The functions of `est_client.c` lines 3260-4635 and
5958-6567. -/
inductive Op
  | getVoucher (g : Get)
  | copyCacert
  | status (x : Status)
  | est (op : ClientMem.Op)
deriving DecidableEq, Repr

/-- A call of `ClientMem.call` on a context in BRSKI mode; it does not touch the three
pointers.  The functions of `est_client.c` lines 3260-4635. -/
def estCall (b : Ctx) (app : Nat) (op : ClientMem.Op) : Mem (EstErr × Ctx) := do
  let (e, c) ← ClientMem.call b.base app op
  pure (e, { b with base := c })

/-- One call.  The functions of `est_client.c` lines 3260-4635 and 5958-6567. -/
def call (b : Ctx) (app : Nat) : Op → Mem (EstErr × Ctx)
  | .getVoucher g => getVoucher b g
  | .copyCacert => copyCacert b
  | .status x => status b x
  | .est op => estCall b app op

/-- A sequence of calls.  The functions of `est_client.c` lines 3260-4635 and 5958-6567, one
after the other. -/
def calls (b : Ctx) (app : Nat) : List Op → Mem Ctx
  | [] => pure b
  | op :: ops => do
    let (_, b) ← call b app op
    calls b app ops

/-- `est_destroy`, `est.c` lines 743-835, with the three pointers (lines 782-791). -/
def destroy (b : Ctx) : Mem Unit := do
  free b.cacert
  free b.voucher
  free b.serial
  ClientMem.destroy b.base

/-- The life of a context.  `est_client.c` lines 4453-4545, then calls, then `est.c` lines
743-835. -/
def life (i : InitIn) (app : Nat) (ops : List Op) : Mem Unit := do
  match ← init i with
  | none => pure ()
  | some c =>
    let b ← calls ⟨c, none, none, none⟩ app ops
    destroy b

end Verif.BrskiMem
