import Verif.ClientReqModel
import Verif.MultipartModel

/-!
# Model of the client's operations

Source: `/repo/src/est/est_client.c` lines 100-210 (`populate_x509_request`,
`est_generate_pkcs10`), 1322-1395, 1542-1702, 1807-1839, 1983-2270, 2768-3105, 3152-3227,
3344-3444, 3484-3715, 3800-4170, 4286-4320, 4410-4419, 4913-4944.

One context, not NULL, and its history.  What OpenSSL, the network and the application
contribute are parameters.  Requests are built by `Verif.ClientReq`, answers are read by
`Verif.ClientResp` and `Verif.Multipart`.  Memory is never exhausted.  The BRSKI operations
and the TLS session cache are left out.
-/
namespace Verif.Flow
open Verif.ClientResp (Mode getResponse)
open Verif.ClientReq (Auth Wire)

/-! ## Certificate requests -/

/-- An attribute of a request: a challengePassword or another one.  The attributes
looked at by `est_client.c` lines 1807-1839 and added in lines 1983-2150. -/
inductive Attr
  | chal (v : List Nat)
  | other (n : Nat)
deriving DecidableEq, Repr

/-- The search for NID_pkcs9_challengePassword, `est_client.c` lines 1807-1839. -/
def Attr.isChal : Attr → Bool
  | .chal _ => true
  | .other _ => false

/-- An `X509_REQ`: `base` stands for subject, key and version, `sig` for the signature with
the key that made it and the attributes it covers.  The object edited in
`est_client.c` lines 1807-1839 and 2168-2216. -/
structure Csr where
  base : Nat
  attrs : List Attr
  sig : Option (Nat × List Attr)
deriving DecidableEq, Repr

/-- The loop of `est_client_clear_csr_pop`, `est_client.c` lines 1807-1839: find the first one, delete it. -/
def clearLoop : Nat → List Attr → List Attr
  | 0, as => as
  | n + 1, as =>
    match as.findIdx? Attr.isChal with
    | none => as
    | some i => clearLoop n (as.eraseIdx i)

/-- `est_client_clear_csr_pop`; each round deletes one attribute, so there are at most as many
rounds as attributes.  `est_client.c` lines 1807-1839. -/
def clearPop (as : List Attr) : List Attr := clearLoop as.length as

/-- `est_X509_REQ_sign`.  `est.c` lines 1568-1600. -/
def sign (csr : Csr) (key : Nat) : Csr := { csr with sig := some (key, csr.attrs) }

/-! ## Surroundings -/

/-- Why `verify_cacert_resp` (`est_client.c` lines 460-640) refuses a response. -/
inductive CaErr
  | load | verification
deriving DecidableEq, Repr

/-- The code returned in each case, `est_client.c` lines 495-638. -/
def CaErr.err : CaErr → EstErr
  | .load => .loadCacerts
  | .verification => .cacertVerification

/-- Library functions: acceptance of a challenge (`Verif.Challenge`), the base64 text of a
request, `est_client_verify_key_and_cert`, `verify_cacert_resp` (which rewrites the text if it
contains CRLs), `est_asn1_parse_attributes`, `est_convert_p7b64_to_pem` followed by
`est_load_trusted_certs`, and `FIPS_mode`.  They are called from `est_client.c` lines
1983-2150, 3003-3075 and 3344-3444. -/
structure Lib where
  tokensOk : List Nat → Bool
  text : Csr → List Nat
  keyFits : List Nat → List Nat → Bool
  verify : List Nat → Except CaErr (List Nat)
  attrs : List Nat → EstErr × Bool
  pemOk : Bool
  loadOk : Bool
  fips : Bool

/-- Errors of `est_client_connect`, `est_client.c` lines 2768-2905. -/
inductive ConnErr
  | getaddr | connect | sslNew | sslConnect | fqdn
deriving DecidableEq, Repr

/-- The code returned in each case, `est_client.c` lines 2768-2905. -/
def ConnErr.err : ConnErr → EstErr
  | .getaddr => .ipGetaddr
  | .connect => .ipConnect
  | .sslNew => .sslNew
  | .sslConnect => .sslConnect
  | .fqdn => .fqdnMismatch

/-- What happens to a request: `SSL_write` fails, reading fails (`est_io_read_raw`, the second
form because the answer is too long), or these bytes come back.  The outcomes of
`est_client.c` lines 1631-1647 and `est_client_http.c` lines 1504-1545. -/
inductive Reply
  | writeFailed
  | readFailed
  | tooLong
  | bytes (raw : List Nat)
deriving DecidableEq, Repr

/-- A connection: the TLS unique id as text, which of the OpenSSL calls on the request succeed,
the authorization value for each mode, and the answer.  What `est_client.c` lines
2168-2216 and 1983-2150 get from the connection. -/
structure Up where
  uid : Option (List Nat)
  verOk : Bool := true
  cnOk : Bool := true
  addOk : Bool := true
  pubOk : Bool := true
  signOk : Bool := true
  auth : Mode → Auth
  reply : Reply

/-- The outcome of est_client_connect, `est_client.c` lines 2768-2905. -/
inductive Conn
  | down (e : ConnErr)
  | up (u : Up)

/-- The fields of the context that matter.  `est_locl.h` lines 395-575. -/
structure Client where
  mode : Mode
  delay : Nat
  ready : Bool
  cert : Option (List Nat)
  key : Option (List Nat)
  cacerts : Option (List Nat)
  attrs : Option (List Nat)
  popReq : Bool
  forcePop : Bool
  /-- the trust anchors of the `SSL_CTX`, against which servers are verified -/
  trust : List Nat
  /-- `trusted_certs_store`; NULL once it was given to the `SSL_CTX` (lines 848-849) -/
  store : Option (List Nat)
deriving DecidableEq, Repr

/-- The context that `est_client_init` returns for these trust anchors.  `est_client.c`
lines 4453-4545. -/
def Client.init (ta : List Nat) : Client :=
  ⟨.none, 0, true, none, none, none, none, false, false, ta, none⟩

/-- The enrolment operations.  The values of est_op in the switch of `est_client.c`
lines 1579-1600. -/
inductive Kind
  | enroll | reenroll | keygen
deriving DecidableEq, Repr

/-- The operation sent, `est_client.c` lines 1579-1600. -/
def Kind.uri : Kind → EstUri.Op
  | .enroll => .simpleEnroll
  | .reenroll => .simpleReenroll
  | .keygen => .serverKeygen

/-- The operation whose answer is expected, `est_client.c` lines 1640-1648. -/
def Kind.op : Kind → ClientResp.Op
  | .enroll => .enroll
  | .reenroll => .reenroll
  | .keygen => .keygen

/-- A request handed to `SSL_write`: the operation, the authorization it carries, the
certificate request, the bytes, and the trust anchors the server was verified against.
The calls are `est_client.c` lines 1372, 1631 and 3007. -/
structure Sent where
  op : EstUri.Op
  auth : Auth
  csr : Option Csr
  bytes : List (Option Nat)
  trust : List Nat
deriving DecidableEq

/-! ## One request -/

/-- `est_client_add_auth_hdr`, `est_client.c` lines 1086-1234: only in these modes. -/
def authOf (u : Up) : Mode → Auth
  | .basic => u.auth .basic
  | .digest => u.auth .digest
  | .token => u.auth .token
  | _ => .none

/-- The answer to an enrolment: result code, mode, delay, certificate, key; `none` is
undefined behaviour.  `est_client_http.c` lines 1547-1822, called at `est_client.c`
lines 1640-1648. -/
def answer (lib : Lib) (c : Client) (k : Kind) (raw : List Nat) :
    Option (EstErr × Mode × Nat × List Nat × List Nat) :=
  if k = .keygen then
    match Multipart.getKeygen lib.tokensOk ⟨c.mode, c.delay⟩ raw with
    | .ub => none
    | .res e m d key cert => some (e, m, d, cert, key)
  else
    let r := getResponse lib.tokensOk ⟨c.mode, c.delay⟩ k.op raw
    some (r.err, r.mode, r.delay, r.body.getD [], [])

/-- `est_client.c` lines 1652-1682 (`est_client_send_enroll_request_internal`). -/
def checkSizes (k : Kind) (cert key : List Nat) : EstErr :=
  if cert.length = 0 then .zeroLengthBuf
  else if cert.length > 4096 then .bufExceedsMaxLen
  else if k = .keygen then
    if key.length = 0 then .zeroLengthBuf
    else if key.length > 8192 then .bufExceedsMaxLen
    else .none
  else .none

/-- `est_client.c` lines 1983-2150 (`est_client_enroll_req`) for a result: what is stored. -/
def store (lib : Lib) (c : Client) (k : Kind) (cert key : List Nat) : EstErr × Client :=
  if checkSizes k cert key ≠ .none then (checkSizes k cert key, c)
  else if k = .keygen then
    let c' := { c with cert := some cert, key := some key }
    (if lib.keyFits key cert then .none else .validation, c')
  else (.none, { c with cert := some cert })

/-- What an operation leaves: result code, context, certificate request (which is edited in
place), requests sent.  The effects of `est_client.c` lines 2168-2270. -/
structure Res where
  err : EstErr
  client : Client
  csr : Csr
  sent : List Sent

/-- `est_client_enroll_req`, `est_client.c` lines 1983-2150, with `est_client_send_enroll_request_internal`,
lines 1542-1702.  `none` is undefined behaviour. -/
def enrollReq (lib : Lib) (cfg : ClientReq.Cfg) (k : Kind) (c : Client) (u : Up) (csr : Csr) :
    Option Res :=
  match ClientReq.enrollRequest cfg k.uri (authOf u c.mode) (lib.text csr) with
  | .ub => none
  | .cannotBuild => some ⟨.httpCannotBuildHeader, c, csr, []⟩
  | .sent b =>
    let s : Sent := ⟨k.uri, authOf u c.mode, some csr, b, c.trust⟩
    match u.reply with
    | .writeFailed => some ⟨.sslWrite, c, csr, [s]⟩
    | .readFailed => some ⟨.sslRead, c, csr, [s]⟩
    | .tooLong => some ⟨.readBufferTooSmall, c, csr, [s]⟩
    | .bytes raw =>
      match answer lib c k raw with
      | none => none
      | some (e, m, d, cert, key) =>
        if e = .none then
          let r := store lib { c with mode := m, delay := d } k cert key
          some ⟨r.1, r.2, csr, [s]⟩
        else some ⟨e, { c with mode := m, delay := d }, csr, [s]⟩

/-- `est_client_enroll_pkcs10`, `est_client.c` lines 2168-2216. -/
def enrollPkcs10 (lib : Lib) (cfg : ClientReq.Cfg) (k : Kind) (key : Nat) (c : Client) (u : Up)
    (csr : Csr) : Option Res :=
  let csr1 := { csr with attrs := clearPop csr.attrs }
  if c.popReq || c.forcePop then
    match u.uid with
    | none => some ⟨.authFailTlsuid, c, csr1, []⟩
    | some id =>
      if !u.addOk then some ⟨.x509Attr, c, csr1, []⟩
      else
        let csr2 := { csr1 with attrs := csr1.attrs ++ [.chal id] }
        if !u.signOk then some ⟨.x509Sign, c, csr2, []⟩
        else enrollReq lib cfg k c u (sign csr2 key)
  else if !u.signOk then some ⟨.x509Sign, c, csr1, []⟩
  else enrollReq lib cfg k c u (sign csr1 key)

/-- `est_generate_pkcs10` and `populate_x509_request`, `est_client.c` lines 114-210. -/
def generate (c : Client) (u : Up) (base key : Nat) (id : List Nat) : Except EstErr Csr :=
  if !u.verOk then .error .x509Ver
  else if !u.cnOk then .error .x509Cn
  else
    let pop := c.popReq || c.forcePop
    if pop && !u.addOk then .error .x509Attr
    else if !u.pubOk then .error .x509Pubkey
    else if !u.signOk then .error .x509Sign
    else .ok (sign ⟨base, if pop then [.chal id] else [], none⟩ key)

/-- `est_client_enroll_cn`, `est_client.c` lines 2237-2270; the request is made anew each time. -/
def enrollCn (lib : Lib) (cfg : ClientReq.Cfg) (k : Kind) (base key : Nat) (c : Client) (u : Up)
    (csr : Csr) : Option Res :=
  match u.uid with
  | none => some ⟨.authFailTlsuid, c, csr, []⟩
  | some id =>
    match generate c u base key id with
    | .error e => some ⟨e, c, csr, []⟩
    | .ok csr' => enrollReq lib cfg k c u csr'

/-! ## The second attempt -/

/-- The modes in which the client has credentials to send.  The cases of `est_client.c`
lines 1083-1234. -/
def Asked (m : Mode) : Prop := m = .digest ∨ m = .basic ∨ m = .token

instance (m : Mode) : Decidable (Asked m) := by unfold Asked; infer_instance

/-- The connections, the first and, if there is one, the second, and the common part of `est_client.c` lines
3172-3216, 3567-3628, 3664-3707.  The flag tells whether the end was reached by `goto err`. -/
def twice (fips : Bool) (net : Conn × Conn) (attempt : Client → Up → Csr → Option Res)
    (c : Client) (csr : Csr) : Option (Res × Bool) :=
  match net.1 with
  | .down e => some (⟨e.err, c, csr, []⟩, true)
  | .up u =>
    match attempt c u csr with
    | none => none
    | some r =>
      if r.err = .authFail ∧ Asked r.client.mode then
        if r.client.mode = .digest ∧ fips then some ({ r with err := .badMode }, true)
        else
          match net.2 with
          | .down e => some ({ r with err := e.err }, true)
          | .up u2 =>
            match attempt r.client u2 r.csr with
            | none => none
            | some r2 => some ({ r2 with sent := r.sent ++ r2.sent }, false)
      else some (r, false)

/-! ## Operations -/

/-- What an operation returns to the application.  The return value and the output
parameters of the calls of `est_client.c` lines 3152-4145. -/
structure Ret where
  err : EstErr
  data : Option (List Nat) := none
  sent : List Sent := []
  csr : Option Csr := none

/-- An early return of the calls of `est_client.c` lines 3152-4145. -/
def refuse (c : Client) (e : EstErr) : Option (Ret × Client) := some ({ err := e }, c)

/-- `est_client_enroll_internal`, `est_client.c` lines 3152-3227 (`est_client_enroll` and
`est_client_server_keygen_enroll`). -/
def enroll (lib : Lib) (cfg : ClientReq.Cfg) (k : Kind) (base : Nat) (key : Option Nat)
    (net : Conn × Conn) (c : Client) : Option (Ret × Client) :=
  if !c.ready then refuse c .clientNotInitialized
  else
    match key with
    | none => refuse c .noKey
    | some key =>
      match twice lib.fips net (enrollCn lib cfg k base key) c ⟨base, [], none⟩ with
      | none => none
      | some (r, jumped) =>
        some ({ err := r.err, sent := r.sent },
          if jumped then r.client else { r.client with mode := .none })

/-- A certificate handed to `est_client_reenroll`: does it have a signature, does the key fit,
the request that `X509_to_X509_REQ` makes of it, does it have extensions and can they be
added.  What `est_client.c` lines 3484-3632 ask about it. -/
structure OldCert where
  signed : Bool
  csr : Option Csr
  exts : Bool
  extsOk : Bool

/-- `est_client_reenroll`, `est_client.c` lines 3484-3637.  The key is given with whether it fits. -/
def reenroll (lib : Lib) (cfg : ClientReq.Cfg) (cert : Option OldCert) (key : Option (Nat × Bool))
    (net : Conn × Conn) (c : Client) : Option (Ret × Client) :=
  match cert, key with
  | none, _ => refuse c .noCert
  | some _, none => refuse c .noKey
  | some old, some (key, fits) =>
    if !c.ready then refuse c .clientNotInitialized
    else if !old.signed then refuse c .badX509
    else if !fits then refuse c .clientInvalidKey
    else
      match old.csr with
      | none => refuse c .noCsr
      | some csr =>
        if old.exts && !old.extsOk then refuse c .none
        else
          match twice lib.fips net (enrollPkcs10 lib cfg .reenroll key) c csr with
          | none => none
          | some (r, _) => some ({ err := r.err, sent := r.sent }, r.client)

/-- `est_client_enroll_csr_internal`, `est_client.c` lines 3640-3715 (`est_client_enroll_csr`, and, with a
key, `est_client_server_keygen_enroll_csr`).  The application keeps the edited request. -/
def enrollCsr (lib : Lib) (cfg : ClientReq.Cfg) (k : Kind) (csr : Option Csr) (key : Option Nat)
    (net : Conn × Conn) (c : Client) : Option (Ret × Client) :=
  if k = .keygen ∧ key = none then refuse c .noKey
  else
    match csr with
    | none => refuse c .noCsr
    | some csr =>
      if !c.ready then refuse c .clientNotInitialized
      else
        match twice lib.fips net
            (match key with
             | some key => enrollPkcs10 lib cfg k key
             | none => enrollReq lib cfg k) c csr with
        | none => none
        | some (r, _) =>
          some ({ err := r.err, sent := r.sent, csr := some r.csr }, r.client)

/-- A GET request and its answer: result code, body, context.  `est_client.c` lines
1321-1404 and 2961-3020. -/
def fetch (lib : Lib) (cfg : ClientReq.Cfg) (uri : EstUri.Op) (op : ClientResp.Op) (c : Client)
    (u : Up) : Option (EstErr × Option (List Nat) × Client × List Sent) :=
  match ClientReq.sendGet (ClientReq.buildGet cfg uri (authOf u c.mode)) with
  | .ub => none
  | .cannotBuild => some (.httpCannotBuildHeader, none, c, [])
  | .sent b =>
    let s : Sent := ⟨uri, if uri = .csrattrs then authOf u c.mode else .none, none, b, c.trust⟩
    match u.reply with
    | .writeFailed => some (.sslWrite, none, c, [s])
    | .readFailed => some (.sslRead, none, c, [s])
    | .tooLong => some (.readBufferTooSmall, none, c, [s])
    | .bytes raw =>
      let r := getResponse lib.tokensOk ⟨c.mode, c.delay⟩ op raw
      some (r.err, r.body, { c with mode := r.mode, delay := r.delay }, [s])

/-- `est_client.c` lines 3022-3080 (`est_client_send_cacerts_request`). -/
def storeCacerts (lib : Lib) (c : Client) (t : List Nat) : EstErr × Client :=
  if t.length = 0 then (.zeroLengthBuf, c)
  else if t.length + 1 > ClientResp.caMax then (.bufExceedsMaxLen, c)
  else
    match lib.verify t with
    | .error e => (e.err, { c with cacerts := none })
    | .ok t' => (.none, { c with cacerts := some t' })

/-- `est_client_get_cacerts`, `est_client.c` lines 3928-3963. -/
def getCacerts (lib : Lib) (cfg : ClientReq.Cfg) (net : Conn) (c : Client) :
    Option (Ret × Client) :=
  if !c.ready then refuse c .clientNotInitialized
  else
    match net with
    | .down e => refuse c e.err
    | .up u =>
      match fetch lib cfg .cacerts .cacerts c u with
      | none => none
      | some (e, body, c', sent) =>
        if e = .none then
          let r := storeCacerts lib c' (body.getD [])
          some ({ err := r.1, sent := sent }, r.2)
        else some ({ err := e, sent := sent }, c')

/-- `est_client_copy_cacerts`, `est_client.c` lines 3985-4018. -/
def copyCacerts (c : Client) : Option (Ret × Client) :=
  if !c.ready then refuse c .clientNotInitialized
  else
    match c.cacerts with
    | none => refuse c .noCertificate
    | some t => some ({ err := .none, data := some t }, { c with ready := false })

/-- `est_client_get_csrattrs`, `est_client.c` lines 4045-4145. -/
def getCsrattrs (lib : Lib) (cfg : ClientReq.Cfg) (net : Conn) (c : Client) :
    Option (Ret × Client) :=
  match net with
  | .down e => refuse c e.err
  | .up u =>
    match fetch lib cfg .csrattrs .csrattrs { c with attrs := none } u with
    | none => none
    | some (e, body, c', sent) =>
      if e ≠ .none then some ({ err := e, sent := sent }, c')
      else
        match body with
        | none => some ({ err := .none, sent := sent }, c')
        | some t =>
          let r := lib.attrs t
          if r.1 = .none then
            some ({ err := .none, data := some t, sent := sent },
              { c' with attrs := some t, popReq := r.2 })
          else some ({ err := r.1, sent := sent }, { c' with popReq := r.2 })

/-- `est_client_copy_enrolled_cert`, `est_client.c` lines 3817-3851. -/
def copyCert (c : Client) : Option (Ret × Client) :=
  if !c.ready then refuse c .clientNotInitialized
  else
    match c.cert with
    | none => refuse c .noCertificate
    | some t => some ({ err := .none, data := some t }, { c with cert := none })

/-- `est_client_copy_server_generated_key`, `est_client.c` lines 3869-3908. -/
def copyKey (c : Client) : Option (Ret × Client) :=
  if !c.ready then refuse c .clientNotInitialized
  else
    match c.key with
    | none => refuse c .noKey
    | some t => some ({ err := .none, data := some t }, { c with key := none })

/-- `est_client_set_auth`, `est_client.c` lines 4286-4320: are user name and password acceptable, can
certificate and key be loaded. -/
def setAuth (pwOk keyOk : Bool) (c : Client) : Option (Ret × Client) :=
  if !pwOk then refuse c .invalidParameters
  else if !keyOk then refuse { c with mode := .none } .clientInvalidKey
  else refuse { c with mode := .none } .none

/-- `est_client_provision_cert`, `est_client.c` lines 3344-3444: connections for the CA certificates, the
attributes and the enrolment.  The errors of loading the new store are taken together.  The new
trust anchors are put into `trusted_certs_store` only (lines 3410-3417). -/
def provision (lib : Lib) (cfg : ClientReq.Cfg) (base : Nat) (key : Option Nat)
    (n1 n2 : Conn) (net : Conn × Conn) (c : Client) : Option (Ret × Client) :=
  if !c.ready then refuse c .clientNotInitialized
  else if key = none then refuse c .noKey
  else
    match getCacerts lib cfg n1 c with
    | none => none
    | some (r1, c1) =>
      if r1.err ≠ .none then some (r1, c1)
      else
        match copyCacerts c1 with
        | none => none
        | some (r2, c2) =>
          if r2.err ≠ .none then some ({ err := r2.err, sent := r1.sent }, c2)
          else if !lib.pemOk then some ({ err := .pemRead, sent := r1.sent }, c2)
          else if !lib.loadOk then some ({ err := .loadTrustCerts, sent := r1.sent }, c2)
          else
            match getCsrattrs lib cfg n2 { c2 with ready := true, store := r2.data } with
            | none => none
            | some (r3, c3) =>
              if r3.err ≠ .none ∧ r3.err ≠ .httpNoContent then
                some ({ err := r3.err, sent := r1.sent ++ r3.sent }, c3)
              else
                match enroll lib cfg .enroll base key net c3 with
                | none => none
                | some (r4, c4) =>
                  some ({ err := r4.err, sent := r1.sent ++ (r3.sent ++ r4.sent) }, c4)

/-- The calls an application can make.  The functions of `est_client.c` lines 3260-4150,
4286-4320, 4410-4419 and 4913-4944. -/
inductive Cmd
  | enroll (base : Nat) (key : Option Nat) (net : Conn × Conn)
  | keygenEnroll (base : Nat) (key : Option Nat) (net : Conn × Conn)
  | reenroll (cert : Option OldCert) (key : Option (Nat × Bool)) (net : Conn × Conn)
  | enrollCsr (csr : Option Csr) (key : Option Nat) (net : Conn × Conn)
  | keygenCsr (csr : Option Csr) (key : Option Nat) (net : Conn × Conn)
  | provision (base : Nat) (key : Option Nat) (n1 n2 : Conn) (net : Conn × Conn)
  | getCacerts (net : Conn)
  | copyCacerts
  | getCsrattrs (net : Conn)
  | copyCert
  | copyKey
  | setAuth (pwOk keyOk : Bool)
  | basicHint
  | forcePop
  | unforcePop

/-- One call (the last three: `est_client.c` lines 4410-4419, 4913-4944). -/
def step (lib : Lib) (cfg : ClientReq.Cfg) (c : Client) : Cmd → Option (Ret × Client)
  | .enroll b k n => enroll lib cfg .enroll b k n c
  | .keygenEnroll b k n => enroll lib cfg .keygen b k n c
  | .reenroll o k n => reenroll lib cfg o k n c
  | .enrollCsr r k n => enrollCsr lib cfg .enroll r k n c
  | .keygenCsr r k n => enrollCsr lib cfg .keygen r k n c
  | .provision b k n1 n2 n => provision lib cfg b k n1 n2 n c
  | .getCacerts n => getCacerts lib cfg n c
  | .copyCacerts => copyCacerts c
  | .getCsrattrs n => getCsrattrs lib cfg n c
  | .copyCert => copyCert c
  | .copyKey => copyKey c
  | .setAuth p k => setAuth p k c
  | .basicHint => refuse { c with mode := .basic } .none
  | .forcePop => refuse { c with forcePop := true } .none
  | .unforcePop => refuse { c with forcePop := false } .none

/-- A sequence of calls; the context may change its OpenSSL surroundings from call to call.
`none` if one of them has undefined behaviour.  The calls of Cmd (`est_client.c` lines
3260-4150, 4286-4320, 4410-4419 and 4913-4944) one after the other. -/
def run (cfg : ClientReq.Cfg) (c : Client) : List (Lib × Cmd) → Option (List Ret × Client)
  | [] => some ([], c)
  | (lib, cmd) :: rest =>
    match step lib cfg c cmd with
    | none => none
    | some (r, c') =>
      match run cfg c' rest with
      | none => none
      | some (rs, c'') => some (r :: rs, c'')

end Verif.Flow
