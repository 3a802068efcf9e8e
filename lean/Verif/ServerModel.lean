import Verif.EstErr
import Verif.EstUriModel

/-!
# Model of the EST server's request handlers

Source: `/repo/src/est/est_server.c` and `/repo/src/est/est_enhcd_cert_auth.c`; the
lines are given with each definition.

What OpenSSL, the application and the network do is input: results of
certificate checks, the TLS unique id, the parsed CSR, the callbacks, and how
many bytes of each write get through.  Every handler returns its return code and
the list of observable effects in order.  `none` stands for undefined behaviour.
-/
namespace Verif.Server

/-- `EST_HTTP_AUTH_HDR_RESULT`, `est_locl.h`.  `est_locl.h` lines 272-279. -/
inductive HdrRes
  | good | missing | bad | csrCheckFail | csrParseFail | ecaErr
deriving DecidableEq, Repr

/-- `EST_AUTH_STATE`, `est.h`.  `est.h` lines 357-364. -/
inductive AuthState
  | unauthorized | csrParseFail | httpAuth | httpAuthPending | certAuth | srpAuth
deriving DecidableEq, Repr

/-- `SSL_get_verify_result`, as far as it is distinguished.  The cases of `est_server.c`
lines 543-577. -/
inductive VRes
  | ok | unableToGetCrl | other
deriving DecidableEq, Repr

/-- `EST_HTTP_AUTH_MODE`, `est.h`.  `est.h` lines 293-299. -/
inductive AuthMode
  | none | basic | digest | token | fail
deriving DecidableEq, Repr

/-- `EST_HTTP_AUTH_HDR`: what is handed to the application's authentication
callback (`est.h`).  The digest fields are kept as one list.  `est.h` lines 439-450. -/
structure Cred where
  mode : AuthMode
  user : List Nat
  pwd : List Nat
  rest : List Nat := []
deriving DecidableEq, Repr

/-- The first value of the challengePassword attribute of a CSR.  The cases of
`est_server.c` lines 1063-1152. -/
inductive Chal
  /-- there is no such attribute -/
  | absent
  /-- the attribute has no value, or its value is not a string; `bs` is then not a
  valid string pointer -/
  | malformed
  | str (bytes : List Nat)
deriving DecidableEq, Repr

/-- A parsed CSR, `X509_REQ`.  `verifyRc` is the result of `X509_REQ_verify` with
the CSR's own key.  What `est_server.c` lines 1000-1190 read of it. -/
structure Csr where
  hasPubkey : Bool
  verifyRc : Int
  chal : Chal
  field : Nat → Option (List Nat)

/-- One entry of the manufacturer list.  `active`: both store pointers are set;
`initOk`: result of `X509_STORE_CTX_init`; `verify`: result of `X509_verify_cert`
for the peer certificate (1 verified, 0 not, negative: internal error).  What
`est_enhcd_cert_auth.c` lines 140-195 read of it. -/
structure Mfg where
  nid : Nat
  active : Bool
  initOk : Bool
  verify : Int

/-- The TLS connection as seen by the handlers.  What `est_server.c` lines 477-760,
962-993 and 1063-1152 read of it. -/
structure Tls where
  peer : Option VRes
  chain : Bool
  srpUser : Bool
  uid : Option (List Nat)
  peerField : Nat → Option (List Nat)
  cmcRA : Bool

/-- What the CA callback returns; the model takes a non-positive length as no
certificate.  The callback is called in `est_server.c` lines 1758-1790. -/
structure CaRes where
  rc : EstErr
  cert : List Nat

/-- What the CA callback is given.  The arguments of the call in `est_server.c` lines
1758-1790. -/
structure CaReq where
  body : List Nat
  user : List Nat
  hasPeer : Bool
  seg : Option (List Nat)
deriving DecidableEq, Repr

/-- EST_TRANSPORT_MODE, `est.h` lines 56-59. -/
inductive Transport
  | http | coap
deriving DecidableEq, Repr

/-- The parts of `EST_CTX` the handlers read.  `est_locl.h` lines 389-578, as read by
`est_server.c` lines 477-2235. -/
structure Cfg where
  transport : Transport
  authMode : AuthMode
  authCb : Option (Cred → Bool)
  requireHttpAuth : Bool
  ecaEnabled : Bool
  ecaCsrCheck : Bool
  mfgs : Option (List Mfg)
  localNid : Nat
  ecaPwd : List Nat
  enablePop : Bool
  enforceAttrs : Bool
  /-- `est_server_all_csrattrs_present` succeeds for this CSR text -/
  attrsPresent : List Nat → Bool
  enrollCb : Option (CaReq → CaRes)
  reenrollCb : Option (CaReq → CaRes)
  retryPeriod : Nat

/-- Which enrolment callback.  The choice in `est_server.c` lines 1758-1790. -/
inductive CaKind
  | enroll | reenroll | keygen
deriving DecidableEq, Repr

/-- Observable effects.  The effects of `est_server.c` lines 477-1849. -/
inductive Ev
  /-- the start of a response with this status -/
  | head (status : Nat)
  /-- response body bytes -/
  | body (bytes : List Nat)
  /-- the application is asked to check these credentials -/
  | askApp (c : Cred)
  /-- the application's CA callback runs -/
  | ca (k : CaKind) (r : CaReq)
deriving DecidableEq, Repr

/-! ## Enhanced certificate authentication -/

/-- The loop of `est_enhcd_cert_auth_get_mfg`, `est_enhcd_cert_auth.c` lines
155-187; the list stands for the `NUM_SUPPORTED_MFG` entries, `rv` is the
variable of that name, `i` the index of the first list element. -/
def getMfgLoop : Nat → EstErr → List Mfg → EstErr × Option Nat
  | _, rv, [] => (rv, none)
  | i, rv, m :: ms =>
    if m.active then
      if !m.initOk then (.malloc, none)
      else if m.verify = 0 then getMfgLoop (i + 1) .none ms
      else (.none, some i)
    else getMfgLoop (i + 1) rv ms

/-- `est_enhcd_cert_auth_get_mfg`, `est_enhcd_cert_auth.c` lines 140-195; an index of -1 is `none`. -/
def getMfg (mfgs : Option (List Mfg)) : EstErr × Option Nat :=
  match mfgs with
  | none => (.none, none)
  | some ms => getMfgLoop 0 .validation ms

/-- `strnlen_s (f, MAX_UIDPWD + 1)` characters of a subject field.
`est_enhcd_cert_auth.c` lines 337-338, 381-382 and 438. -/
def cap (f : List Nat) : List Nat := f.take 256

/-- Local-PKI branch of `perform_enhanced_cert_auth_csr_check`, `est_enhcd_cert_auth.c` lines 347-396:
the value of `cmp_ind` after the loop (`true` is non-zero).  When both fields are
empty `strcmp_s` reports an error and leaves the variable unchanged. -/
def localLoop (peerField csrField : Nat → Option (List Nat)) : Bool → List Mfg → Bool
  | ind, [] => ind
  | ind, m :: ms =>
    if m.active then
      match peerField m.nid with
      | none => localLoop peerField csrField true ms
      | some a =>
        match csrField m.nid with
        | none => localLoop peerField csrField true ms
        | some b =>
          if (cap a).length ≠ (cap b).length then localLoop peerField csrField true ms
          else
            let ind' := if cap a = [] then ind else !(cap a == cap b)
            if ind' then localLoop peerField csrField true ms else false
    else localLoop peerField csrField ind ms

/-- `perform_enhanced_cert_auth_csr_check`, `est_enhcd_cert_auth.c` lines 298-405. -/
def csrCheck (cfg : Cfg) (tls : Tls) (csr : Csr) (idx : Option Nat) : HdrRes :=
  match cfg.mfgs with
  | none => .csrCheckFail
  | some ms =>
    match idx with
    | some i =>
      match ms[i]? with
      | none => .ecaErr
      | some m =>
        match tls.peerField m.nid with
        | none => .csrCheckFail
        | some a =>
          match csr.field m.nid with
          | none => .csrCheckFail
          | some b =>
            if (cap a).length ≠ (cap b).length then .csrCheckFail
            else if cap a = [] then .ecaErr
            else if cap a == cap b then .good else .csrCheckFail
    | none => if localLoop tls.peerField csr.field false ms then .csrCheckFail else .good

/-- `build_enhanced_cert_auth_header`, `est_enhcd_cert_auth.c` lines 425-449. -/
def buildEcaHeader (cfg : Cfg) (tls : Tls) (nid : Nat) : HdrRes × Cred :=
  match tls.peerField nid with
  | none => (.ecaErr, ⟨.basic, [], [], []⟩)
  | some f => (.good, ⟨.basic, cap f, cap cfg.ecaPwd, []⟩)

/-- `handle_enhanced_cert_auth`, `est_server.c` lines 477-536.  Result: the header
result, the credentials built, and the CSR if it was parsed here. -/
def handleEca (cfg : Cfg) (tls : Tls) (parse : List Nat → Option Csr) (csrBuf : List Nat)
    (check : Bool) : HdrRes × Cred × Option Csr :=
  let noCred : Cred := ⟨.none, [], [], []⟩
  if !tls.chain then (.ecaErr, noCred, none)
  else
    let g := getMfg cfg.mfgs
    if g.1 = .none ∨ g.1 = .validation then
      let nid := match g.2 with
        | some i => match cfg.mfgs with
          | some ms => match ms[i]? with
            | some m => m.nid
            | none => cfg.localNid
          | none => cfg.localNid
        | none => cfg.localNid
      if check then
        match parse csrBuf with
        | none => (.csrParseFail, noCred, none)
        | some csr =>
          let r := csrCheck cfg tls csr g.2
          if r = .good then
            let h := buildEcaHeader cfg tls nid
            (h.1, h.2, some csr)
          else (r, noCred, some csr)
      else
        let h := buildEcaHeader cfg tls nid
        (h.1, h.2, none)
    else (.bad, noCred, none)

/-! ## Client authentication -/

/-- `check_for_TLS_cert_auth`, `est_server.c` lines 543-577: `none` if authentication stops. -/
def checkTlsCert (tls : Tls) : Option AuthState :=
  match tls.peer with
  | some .ok => some .certAuth
  | some .unableToGetCrl => some .certAuth
  | some .other => none
  | none => some .unauthorized

/-- `EST_ENROLL_REQ_TYPE`, `est.h`.  `est.h` lines 71-75. -/
inductive ReqType
  | enroll | reenroll | keygen
deriving DecidableEq, Repr

/-- Result of `est_enroll_auth`: the state, the CSR if parsed, the user id stored
on the connection if it was changed, and the effects.  The outcome of `est_server.c`
lines 585-758. -/
structure AuthOut where
  st : AuthState
  csr : Option Csr := none
  user : Option (List Nat) := none
  evs : List Ev := []

/-- `mg_send_authorization_request`, `est_server_http.c` lines 1069-1112: nothing is
sent when the mode is neither Basic, Digest nor Token. -/
def challenge (m : AuthMode) : List Ev :=
  match m with
  | .basic | .digest | .token => [.head 401]
  | _ => []

/-- `est_enroll_auth`, `est_server.c` lines 585-758.  `hdr` is the outcome of
`mg_parse_auth_header` for the request at hand, with the credentials found; that
function stores the user name on the connection when it answers good (lines
1058-1064 of `est_server_http.c`), except for tokens.  `none`: a NULL callback is
called (CoAP branch, line 704). -/
def enrollAuth (cfg : Cfg) (tls : Tls) (hdr : HdrRes × Cred) (parse : List Nat → Option Csr)
    (ty : ReqType) (csrBuf : List Nat) : Option AuthOut :=
  match checkTlsCert tls with
  | none => some { st := .unauthorized }
  | some st0 =>
    let rv := if st0 ≠ .certAuth ∧ tls.srpUser then AuthState.srpAuth else st0
    match cfg.transport with
    | .http =>
      match cfg.authCb with
      | none => some { st := rv }
      | some cb =>
        if rv = .unauthorized ∨ cfg.requireHttpAuth then
          let eca := cfg.ecaEnabled && rv == .certAuth
          let e := handleEca cfg tls parse csrBuf cfg.ecaCsrCheck
          let pr := if eca then e.1 else hdr.1
          let cred := if eca then e.2.1 else hdr.2
          let csr := if eca then e.2.2 else none
          let user := if !eca && hdr.1 == .good && hdr.2.mode != .token then some hdr.2.user
            else none
          match pr with
          | .good =>
            some { st := if cb cred then .httpAuth else .unauthorized, csr := csr,
                   user := user, evs := [.askApp cred] }
          | .missing => some { st := .httpAuthPending, csr := csr, evs := challenge cfg.authMode }
          | .csrCheckFail => some { st := .unauthorized, csr := csr }
          | .csrParseFail => some { st := .csrParseFail, csr := csr }
          | .ecaErr => some { st := .unauthorized, csr := csr }
          | .bad =>
            if ty ≠ .enroll ∧ rv = .certAuth then some { st := rv, csr := csr }
            else some { st := .unauthorized, csr := csr }
        else some { st := rv }
    | .coap =>
      if rv ≠ .certAuth then some { st := .unauthorized }
      else if cfg.ecaEnabled then
        if csrBuf = [] then some { st := .csrParseFail }
        else
          let e := handleEca cfg tls parse csrBuf cfg.ecaCsrCheck
          match e.1 with
          | .good =>
            match cfg.authCb with
            | none => none
            | some cb =>
              some { st := if cb e.2.1 then .httpAuth else .unauthorized, csr := e.2.2,
                     evs := [.askApp e.2.1] }
          | .csrParseFail => some { st := .csrParseFail, csr := e.2.2 }
          | _ => some { st := .unauthorized, csr := e.2.2 }
      else some { st := rv }

/-! ## CSR checks -/

/-- Result of the proof-of-possession check; `ub` is an invalid memory access.  The
outcome of `est_server.c` lines 1063-1152. -/
inductive Pop
  | ub | ok | fail
deriving DecidableEq, Repr

/-- `est_tls_uid_auth`, `est_server.c` lines 1063-1152.  `memcmp_s (tls_uid, uid_len, bs->data,
uid_len)` compares `uid_len` bytes of both; OpenSSL keeps one NUL byte after the
data of a string, so comparing more bytes than the string has (plus one) reads out
of bounds.  A zero-length id makes `memcmp_s` fail (stub line 79). -/
def tlsUidAuth (enablePop : Bool) (uid : Option (List Nat)) (chal : Chal) : Pop :=
  match chal with
  | .absent => if enablePop then .fail else .ok
  | .malformed => .ub
  | .str d =>
    match uid with
    | none => .fail
    | some u =>
      if u = [] then .fail
      else if d.length + 1 < u.length then .ub
      else if u = (d ++ [0]).take u.length then .ok else .fail

/-- `est_server_check_csr`, `est_server.c` lines 1159-1189, `true` if the CSR passes. -/
def checkCsr (csr : Csr) : Bool := csr.hasPubkey && decide (csr.verifyRc > 0)

/-! ## Responses -/

/-- The status `est_send_http_error` sends for an error code, `est_server.c` lines 59-152
(server mode, first pass through the switch). -/
def errStatus (e : EstErr) : Nat :=
  match e with
  | .caEnrollRetry => 202
  | .httpNoContent => 204
  | .httpBadReq | .csrAttrMissing | .badAsn1Hex | .badPkcs10 | .badContentType
  | .wrongMethod | .noSslCtx => 400
  | .authFail | .authFailTlsuid => 401
  | .httpNotFound | .httpInvalidPathSegment => 404
  | .httpLocked => 423
  | .httpUnsupported => 502
  | .ipConnect => 504
  | .caEnrollFail => 500
  | _ => 500

/-- `est_send_http_error`, `est_server.c` lines 59-152, and `est_server_send_http_retry_after`,
lines 160-181.  `retryOut`: did the write of the retry header deliver anything?
If not, a 500 response is tried instead. -/
def sendError (retryOut : Bool) (e : EstErr) : List Ev :=
  if e = .caEnrollRetry then
    if retryOut then [.head 202] else [.head 500]
  else [.head (errStatus e)]

/-- `mg_write` of body bytes (`est_server_http.c` lines 469-508): `n` is the number
of bytes the TLS layer takes before it fails.  Result: the effect and whether the
caller sees success (a non-zero count). -/
def writeBody (n : Nat) (bytes : List Nat) : List Ev × Bool :=
  let sent := bytes.take n
  (if sent = [] then [] else [.body sent], !sent.isEmpty)

/-- "application/pkcs10" is a prefix of the content type
(`strncmp (ct, "application/pkcs10", 18)`).  `est_server.c` lines 1676-1682. -/
def ctPkcs10 (ct : List Nat) : Bool := [97, 112, 112, 108, 105, 99, 97, 116, 105, 111, 110, 47, 112, 107, 99, 115, 49, 48].isPrefixOf ct

/-- How much of the header and of the body write gets through.  The calls of mg_write in
`est_server.c` lines 1800-1849. -/
structure Net where
  hdrOut : Bool
  bodyOut : Nat
  retryOut : Bool

/-- The input of an enrolment.  The arguments of `est_server.c` lines 1630-1640. -/
structure Req where
  ct : List Nat
  body : List Nat
  seg : Option (List Nat)
  hdr : HdrRes × Cred
  /-- user id left on the connection by earlier requests -/
  connUser : List Nat

/-- Output of a handler: return code, effects, user id now on the connection.  The
outcome of `est_server.c` lines 1630-1849. -/
structure Out where
  rc : EstErr
  evs : List Ev
  connUser : List Nat

/-- The request handed to the CA callback: over CoAP no user id is passed.
`est_server.c` lines 1758-1790. -/
def caReqOf (cfg : Cfg) (tls : Tls) (rq : Req) (a : AuthOut) : CaReq :=
  ⟨rq.body, if cfg.transport = .http then a.user.getD rq.connUser else [],
    tls.peer.isSome, rq.seg⟩

/-- End of `est_handle_simple_enroll`, `est_server.c` lines 1788-1849: what is done with the answer of
the CA; `evs` are the effects so far. -/
def enrollAnswer (cfg : Cfg) (net : Net) (r : CaRes) (evs : List Ev) (u : List Nat) : Out :=
  if r.rc = .none ∧ r.cert ≠ [] then
    match cfg.transport with
    | .coap => ⟨.none, evs, u⟩
    | .http =>
      if !net.hdrOut then ⟨.httpWrite, evs, u⟩
      else
        let w := writeBody net.bodyOut r.cert
        ⟨if w.2 then .none else .httpWrite, evs ++ [.head 200] ++ w.1, u⟩
  else if r.rc = .caEnrollRetry then ⟨.caEnrollRetry, evs, u⟩
  else ⟨.caEnrollFail, evs, u⟩

/-- Middle of `est_handle_simple_enroll`, `est_server.c` lines 1710-1787: the client is authorised, the
CSR is checked and the CA is called. -/
def enrollCsr (cfg : Cfg) (tls : Tls) (net : Net) (parse : List Nat → Option Csr)
    (kind : CaKind) (ca : CaReq → CaRes) (rq : Req) (a : AuthOut) : Option Out :=
  let u := a.user.getD rq.connUser
  match a.csr.or (parse rq.body) with
  | none => some ⟨.badPkcs10, a.evs, u⟩
  | some csr =>
    if !checkCsr csr then some ⟨.badPkcs10, a.evs, u⟩
    else
      let ra := tls.peer.isSome && tls.cmcRA
      match (if ra then Pop.ok else tlsUidAuth cfg.enablePop tls.uid csr.chal) with
      | .ub => none
      | .fail => some ⟨.authFailTlsuid, a.evs, u⟩
      | .ok =>
        if cfg.enforceAttrs && !cfg.attrsPresent rq.body then
          some ⟨.csrAttrMissing, a.evs, u⟩
        else
          let q := caReqOf cfg tls rq a
          some (enrollAnswer cfg net (ca q) (a.evs ++ [.ca kind q]) u)

/-- `est_handle_simple_enroll`, `est_server.c` lines 1630-1849, for an enrol (`re = false`) or
re-enrol request over HTTP or CoAP.  `peer_cert` is the certificate of the TLS peer
whatever its verification result (`est_http_request` line 2744). -/
def simpleEnroll (cfg : Cfg) (tls : Tls) (net : Net) (parse : List Nat → Option Csr)
    (re : Bool) (rq : Req) : Option Out :=
  match (if re then cfg.reenrollCb else cfg.enrollCb) with
  | none => some ⟨.nullCallback, [], rq.connUser⟩
  | some ca =>
    if cfg.transport = .http ∧ !ctPkcs10 rq.ct then some ⟨.badContentType, [], rq.connUser⟩
    else
      match enrollAuth cfg tls rq.hdr parse (if re then .reenroll else .enroll) rq.body with
      | none => none
      | some a =>
        let u := a.user.getD rq.connUser
        match a.st with
        | .httpAuthPending => some ⟨.authPending, a.evs, u⟩
        | .csrParseFail => some ⟨.badPkcs10, a.evs, u⟩
        | .unauthorized => some ⟨.authFail, a.evs, u⟩
        | .httpAuth | .srpAuth | .certAuth =>
          enrollCsr cfg tls net parse (if re then .reenroll else .enroll) ca rq a


end Verif.Server
