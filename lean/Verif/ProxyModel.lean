import Verif.DispatchModel
import Verif.ClientFlowModel

/-!
# Model of the EST proxy

Source: `/repo/src/est/est_proxy.c` lines 240-1985, `/repo/src/est/est.c` lines 2170-2193
(`est_store_path_segment`), `/repo/src/est/est_client.c` lines 1542-1745 (as called by the
proxy), `/repo/src/est/est_server.c` lines 59-225, `/repo/src/est/est_server_http.c` lines
1855-1900.

Requests of clients are handled with the server's functions (`Verif.Server`), requests to the
upstream server with the client's (`Verif.Flow`, `Verif.ClientReq`).  Each thread has its own
client context (`Verif.ProxyTable` is the table they are kept in).  What the upstream server,
the network and OpenSSL do is input.  Memory is never exhausted.  Timers, log messages and
event callbacks are left out.
-/
namespace Verif.Proxy
open Verif.Server (Ev Cred HdrRes Csr Tls AttrLib ReqType Pop)
open Verif.Flow (Conn Kind Sent Lib)
open Verif.ClientResp (Mode decimal)

/-! ## State -/

/-- A client context of the proxy with the path segment stored in it.  The node of
`est_locl.h` lines 310-313; the segment is stored by `est.c` lines 2170-2193. -/
structure PClient where
  c : Flow.Client
  seg : Option (List Nat)

/-- The proxy context as far as requests change it: `retry_after_delay`, `ca_certs` and the
client context of each thread.  `est_locl.h` lines 389-578, as used by `est_proxy.c`
lines 621-1534. -/
structure State where
  delay : Nat
  caCerts : Option (List Nat)
  clients : Nat → Option PClient

/-- The configuration: server side, the upstream server (`up.seg` is not used), trust anchors,
`uri_path_segment` of the proxy context.  `est_locl.h` lines 389-578, as read by
`est_proxy.c` lines 621-1985. -/
structure Cfg where
  srv : Server.Cfg
  up : ClientReq.Cfg
  trust : List Nat
  seg : Option (List Nat)
  lib : Lib
  attrLib : AttrLib
  parse : List Nat → Option Csr

/-- What happens around one request: the thread, whether `get_client_ctx` can set up a new
context, the connection made at each attempt, the TLS connection of the client, how many bytes
of each write to the client get through and whether the retry response does.  The
calls of `est_proxy.c` lines 79-218, 441-525 and 249-371. -/
structure Env where
  thread : Nat
  setup : Bool
  conn : Nat → Conn
  tls : Tls
  out : Nat → Nat
  retryOut : Bool
  /-- bound for the number of rounds of `goto try_again` that are looked at -/
  fuel : Nat

/-- Effects: those of the server functions, bytes written to the client, the delay in a retry
response, a request sent upstream.  The effects of `est_proxy.c` lines 621-1985. -/
inductive PEv
  | srv (e : Ev)
  | write (bytes : List Nat)
  | retryAfter (delay : Nat)
  | up (s : Sent)
deriving DecidableEq

/-- Result of something that may run into undefined behaviour or not end.  The outcomes
of `est_proxy.c` lines 621-1985. -/
inductive Run (α : Type)
  | ub
  | endless
  | done (a : α)

/-! ## Upstream -/

/-- The result of an exchange with the upstream server: result code, client context, the
certificate and key in the proxy's buffers (empty: length 0), the request sent.  The
outcome of `est_proxy.c` lines 441-525. -/
structure Xch where
  err : EstErr
  pc : PClient
  cert : List Nat
  key : List Nat
  sent : List Sent

/-- `est_client.c` lines 1652-1682 (`est_client_send_enroll_request_internal`): which of the lengths that
were set to zero at the start get a value. -/
def accept (k : Kind) (pc : PClient) (cert key : List Nat) (sent : List Sent) : Xch :=
  ⟨Flow.checkSizes k cert key, pc,
    if cert.length = 0 ∨ 4096 < cert.length then [] else cert,
    if Flow.checkSizes k cert key = .none ∧ k = .keygen then key else [], sent⟩

/-- `est_proxy_send_enroll_request` and `est_proxy_send_keygen_request`, `est_proxy.c` lines 441-525: connect
and send.  `cert` and `key` are what the buffers hold so far. -/
def exchange (cfg : Cfg) (k : Kind) (pc : PClient) (text cert key : List Nat) (conn : Conn) :
    Option Xch :=
  match conn with
  | .down e => some ⟨e.err, pc, cert, key, []⟩
  | .up u =>
    match ClientReq.enrollRequest { cfg.up with seg := pc.seg } k.uri
        (Flow.authOf u pc.c.mode) text with
    | .ub => none
    | .cannotBuild => some ⟨.httpCannotBuildHeader, pc, [], [], []⟩
    | .sent b =>
      let s : Sent := ⟨k.uri, Flow.authOf u pc.c.mode, none, b, pc.c.trust⟩
      match u.reply with
      | .writeFailed => some ⟨.sslWrite, pc, [], [], [s]⟩
      | .readFailed => some ⟨.sslRead, pc, [], [], [s]⟩
      | .tooLong => some ⟨.readBufferTooSmall, pc, [], [], [s]⟩
      | .bytes raw =>
        match Flow.answer cfg.lib pc.c k raw with
        | none => none
        | some (e, m, d, crt, ky) =>
          let pc' : PClient := { pc with c := { pc.c with mode := m, delay := d } }
          if e = .none then some (accept k pc' crt ky [s])
          else some ⟨e, pc', [], [], [s]⟩

/-- The condition for another attempt, `est_proxy.c` lines 821-829, 1090-1098. -/
def again (m : Server.AuthMode) (e : EstErr) (cm : Mode) : Bool :=
  decide (e = .authFail ∧ (m = .digest ∨ m = .basic ∨ m = .token) ∧ cm ≠ .fail)

/-- The loop of `est_proxy.c` lines 761-841 and 1031-1109, round `i`. -/
def attempts (cfg : Cfg) (k : Kind) (text : List Nat) (conn : Nat → Conn) :
    Nat → Nat → PClient → List Nat → List Nat → Run Xch
  | 0, _, _, _, _ => .endless
  | n + 1, i, pc, cert, key =>
    match exchange cfg k pc text cert key (conn i) with
    | none => .ub
    | some x =>
      if again cfg.srv.authMode x.err x.pc.c.mode then
        match attempts cfg k text conn n (i + 1) x.pc x.cert x.key with
        | .ub => .ub
        | .endless => .endless
        | .done y => .done { y with sent := x.sent ++ y.sent }
      else .done x

/-- The switch of `est_proxy.c` lines 777-838 and 1047-1105: the code handed on.  Connections that cannot be
made, TLS failures and protocol errors are grouped. -/
def relay (e : EstErr) : EstErr :=
  match e with
  | .none => .none
  | .ipGetaddr | .ipConnect | .sslRead => .ipConnect
  | .sslConnect | .fqdnMismatch | .sslWrite | .zeroLengthBuf | .multipartParse | .unknown
  | .bufExceedsMaxLen | .httpUnsupported => .httpUnsupported
  | .httpBadReq | .httpNoContent | .httpNotFound | .httpLocked | .caEnrollRetry => e
  | .authFail => .authFail
  | _ => .unknown

/-! ## Answers -/

/-- Writes to the client, one after the other until one delivers nothing; `out i` is the number
of bytes that get through of write `i`.  The calls of mg_write in `est_proxy.c` lines
249-371. -/
def writes (out : Nat → Nat) : Nat → List (List Nat) → List PEv × Bool
  | _, [] => ([], true)
  | i, b :: bs =>
    let sent := b.take (out i)
    if sent = [] then ([], false)
    else
      let r := writes out (i + 1) bs
      (.write sent :: r.1, r.2)

/-- The header of a 200 response: `est_proxy_propagate_pkcs7`, lines 257-271 (the same text as
`est_server.c` 1803-1816), `est_handle_cacerts` (`est_server.c` 200-213) and
`est_send_csrattr_data` (`est_server_http.c` 1864-1877). -/
def head200 (ct : List Nat) (n : Nat) : List Nat :=
  [72, 84, 84, 80, 47, 49, 46, 49, 32, 50, 48, 48, 32, 79, 75, 13, 10, 83, 116, 97, 116, 117, 115, 58, 32, 50, 48, 48, 32, 79, 75, 13, 10, 67, 111, 110, 116, 101, 110, 116, 45, 84, 121, 112, 101, 58, 32] ++ (ct ++
    ([13, 10, 67, 111, 110, 116, 101, 110, 116, 45, 84, 114, 97, 110, 115, 102, 101, 114, 45, 69, 110, 99, 111, 100, 105, 110, 103, 58, 32, 98, 97, 115, 101, 54, 52, 13, 10, 67, 111, 110, 116, 101, 110, 116, 45, 76, 101, 110, 103, 116, 104, 58, 32] ++ (decimal n ++ [13, 10, 13, 10])))

/-- EST_HTTP_CT_PKCS7_CO, `est_locl.h` line 183. -/
def ctCert : List Nat := [97, 112, 112, 108, 105, 99, 97, 116, 105, 111, 110, 47, 112, 107, 99, 115, 55, 45, 109, 105, 109, 101, 59, 32, 115, 109, 105, 109, 101, 45, 116, 121, 112, 101, 61, 99, 101, 114, 116, 115, 45, 111, 110, 108, 121]
/-- EST_HTTP_CT_PKCS7, `est_locl.h` line 182. -/
def ctCacerts : List Nat := [97, 112, 112, 108, 105, 99, 97, 116, 105, 111, 110, 47, 112, 107, 99, 115, 55, 45, 109, 105, 109, 101]
/-- EST_HTTP_CT_CSRATTRS, `est_locl.h` line 184. -/
def ctAttrs : List Nat := [97, 112, 112, 108, 105, 99, 97, 116, 105, 111, 110, 47, 99, 115, 114, 97, 116, 116, 114, 115]

/-- The header `est_proxy_propagate_keygen_rsp` writes, `est_proxy.c` lines 297-306. -/
def keygenHead (n : Nat) : List Nat :=
  [72, 84, 84, 80, 47, 49, 46, 49, 32, 50, 48, 48, 13, 10, 83, 116, 97, 116, 117, 115, 58, 32, 50, 48, 48, 32, 79, 75, 13, 10, 67, 111, 110, 116, 101, 110, 116, 45, 84, 121, 112, 101, 58, 32, 109, 117, 108, 116, 105, 112, 97, 114, 116, 47, 109, 105, 120, 101, 100, 59, 32, 98, 111, 117, 110, 100, 97, 114, 121, 61, 101, 115, 116, 45, 115, 101, 114, 118, 101, 114, 45, 98, 111, 117, 110, 100, 97, 114, 121, 13, 10, 67, 111, 110, 116, 101, 110, 116, 45, 76, 101, 110, 103, 116, 104, 58, 32] ++
    (decimal n ++ [13, 10, 13, 10])

/-- What the same write contains behind the header, `est_proxy.c` lines 307-319. -/
def keyPart : List Nat :=
  [10, 45, 45, 101, 115, 116, 45, 115, 101, 114, 118, 101, 114, 45, 98, 111, 117, 110, 100, 97, 114, 121, 13, 10, 67, 111, 110, 116, 101, 110, 116, 45, 84, 121, 112, 101, 58, 32, 97, 112, 112, 108, 105, 99, 97, 116, 105, 111, 110, 47, 112, 107, 99, 115, 56, 13, 10, 67, 111, 110, 116, 101, 110, 116, 45, 84, 114, 97, 110, 115, 102, 101, 114, 45, 69, 110, 99, 111, 100, 105, 110, 103, 58, 32, 98, 97, 115, 101, 54, 52, 13, 10, 13, 10]

/-- The writes of `est_proxy_propagate_keygen_rsp`, `est_proxy.c` lines 321-371. -/
def keygenWrites (key cert : List Nat) : List (List Nat) :=
  [keygenHead (key.length + cert.length) ++ keyPart, key, [13, 10, 45, 45, 101, 115, 116, 45, 115, 101, 114, 118, 101, 114, 45, 98, 111, 117, 110, 100, 97, 114, 121, 13, 10],
   [67, 111, 110, 116, 101, 110, 116, 45, 84, 121, 112, 101, 58, 32, 97, 112, 112, 108, 105, 99, 97, 116, 105, 111, 110, 47, 112, 107, 99, 115, 55, 45, 109, 105, 109, 101, 59, 32, 115, 109, 105, 109, 101, 45, 116, 121, 112, 101, 61, 99, 101, 114, 116, 115, 45, 111, 110, 108, 121, 13, 10, 67, 111, 110, 116, 101, 110, 116, 45, 84, 114, 97, 110, 115, 102, 101, 114, 45, 69, 110, 99, 111, 100, 105, 110, 103, 58, 32, 98, 97, 115, 101, 54, 52, 13, 10, 13, 10],
   cert, [13, 10, 45, 45, 101, 115, 116, 45, 115, 101, 114, 118, 101, 114, 45, 98, 111, 117, 110, 100, 97, 114, 121, 45, 45, 13, 10, 13, 10]]

/-- `est_proxy_propagate_pkcs7`, `est_proxy.c` lines 249-280. -/
def propagateCert (out : Nat → Nat) (cert : List Nat) : List PEv × EstErr :=
  let w := writes out 0 [head200 ctCert cert.length, cert]
  (w.1, if w.2 then .none else .httpWrite)

/-- `est_proxy_propagate_keygen_rsp`, `est_proxy.c` lines 286-371. -/
def propagateKeygen (out : Nat → Nat) (key cert : List Nat) : List PEv × EstErr :=
  let w := writes out 0 (keygenWrites key cert)
  (w.1, if w.2 then .none else .httpWrite)

/-- `est_handle_cacerts`, `est_server.c` lines 187-225. -/
def sendCacerts (out : Nat → Nat) (certs : List Nat) : List PEv × EstErr :=
  let w := writes out 0 [head200 ctCacerts certs.length, certs]
  (w.1, if w.2 then .none else .httpWrite)

/-- `est_send_http_error` in proxy mode, `est_server.c` lines 59-181: a retry response carries
the delay that is in the proxy context now. -/
def sendError (retryOut : Bool) (delay : Nat) (e : EstErr) : List PEv :=
  (Server.sendError retryOut e).map PEv.srv ++
    (if e = .caEnrollRetry ∧ retryOut then [.retryAfter delay] else [])

/-- `est_send_csrattr_data`, `est_server_http.c` lines 1855-1900. -/
def sendAttrs (out : Nat → Nat) (retryOut : Bool) (delay : Nat) (d : List Nat) :
    List PEv × EstErr :=
  if d = [] then (sendError retryOut delay .httpNoContent, .none)
  else
    let w := writes out 0 [head200 ctAttrs d.length, d]
    (w.1, if w.2 then .none else .httpWrite)

/-! ## Handlers -/

/-- Result of a handler: return code, effects, state; over CoAP `ret` is what the caller sends
(certificate and key, attributes).  The outcomes of `est_proxy.c` lines 621-1534. -/
structure Out where
  rc : EstErr
  evs : List PEv
  st : State
  ret : List Nat := []
  retKey : List Nat := []

/-- `get_client_ctx`, `est_proxy.c` lines 79-218; that the table finds the right one is `Verif.ProxyTable`. -/
def getClient (cfg : Cfg) (env : Env) (st : State) : Option PClient :=
  match st.clients env.thread with
  | some pc => some pc
  | none => if env.setup then some ⟨Flow.Client.init cfg.trust, none⟩ else none

/-- Put the client context of this thread back.  The client context is changed in place,
`est_proxy.c` lines 79-218. -/
def setClient (st : State) (t : Nat) (pc : PClient) : State :=
  { st with clients := fun u => if u = t then some pc else st.clients u }

/-- Lines 732-750, 1004-1021, 1217-1232, 1366-1381 with `est_proxy_set_path_segment` (`est_proxy.c` lines
597-611) and `est_store_path_segment`: the segment of the request, else the one of the proxy
context; if there is neither, nothing is stored. -/
def chooseSeg (cfg : Cfg) (seg : Option (List Nat)) (pc : PClient) : PClient :=
  match seg.or cfg.seg with
  | some s => { pc with seg := some (s.take 128) }
  | none => pc

/-- The request of a client as the handlers see it.  The arguments of `est_proxy.c`
lines 621-640 and 892-910. -/
structure Rq where
  ct : List Nat
  body : List Nat
  seg : Option (List Nat)
  hdr : HdrRes × Cred

/-- The argument enroll_req of `est_proxy.c` lines 621-640, as given in lines 1660-1905. -/
def reqType : Kind → ReqType
  | .enroll => .enroll
  | .reenroll => .reenroll
  | .keygen => .keygen

/-- The end of the enrolment handlers, `est_proxy.c` lines 843-880 and 1111-1154: over HTTP a certificate (and
key) is sent at once. -/
def deliver (cfg : Cfg) (env : Env) (k : Kind) (evs : List PEv) (st : State) (x : Xch) : Out :=
  if x.cert ≠ [] ∧ (k = .keygen → x.key ≠ []) then
    match cfg.srv.transport with
    | .http =>
      let w := if k = .keygen then propagateKeygen env.out x.key x.cert
        else propagateCert env.out x.cert
      ⟨w.2, evs ++ w.1, st, x.cert, x.key⟩
    | .coap => ⟨relay x.err, evs, st, x.cert, x.key⟩
  else ⟨relay x.err, evs, st, [], []⟩

/-- `est_proxy.c` lines 714-880 and 986-1154: the CSR passed all checks and is sent upstream. -/
def forward (cfg : Cfg) (env : Env) (k : Kind) (rq : Rq) (evs : List PEv) (st : State) : Run Out :=
  match getClient cfg env st with
  | none => .done ⟨.noCtx, evs, st, [], []⟩
  | some pc0 =>
    match attempts cfg k rq.body env.conn env.fuel 0 (chooseSeg cfg rq.seg pc0) [] [] with
    | .ub => .ub
    | .endless => .endless
    | .done x =>
      let pc : PClient := { x.pc with c := { x.pc.c with mode := .none } }
      let st' := { setClient st env.thread pc with delay := x.pc.c.delay }
      .done (deliver cfg env k (evs ++ x.sent.map PEv.up) st' x)

/-- `est_proxy_handle_simple_enroll`, `est_proxy.c` lines 621-880, and `est_proxy_handle_server_keygen`,
lines 892-1157. -/
def handleEnroll (cfg : Cfg) (env : Env) (k : Kind) (rq : Rq) (st : State) : Run Out :=
  if cfg.srv.transport = .http ∧ rq.ct ≠ [97, 112, 112, 108, 105, 99, 97, 116, 105, 111, 110, 47, 112, 107, 99, 115, 49, 48] then
    .done ⟨.badContentType, [], st, [], []⟩
  else
    match Server.enrollAuth cfg.srv env.tls rq.hdr cfg.parse (reqType k) rq.body with
    | none => .ub
    | some a =>
      let evs := a.evs.map PEv.srv
      match a.st with
      | .httpAuthPending => .done ⟨.authPending, evs, st, [], []⟩
      | .csrParseFail => .done ⟨.badPkcs10, evs, st, [], []⟩
      | .unauthorized => .done ⟨.authFail, evs, st, [], []⟩
      | .httpAuth | .srpAuth | .certAuth =>
        match a.csr.or (cfg.parse rq.body) with
        | none => .done ⟨.badPkcs10, evs, st, [], []⟩
        | some csr =>
          if !Server.checkCsr csr then .done ⟨.badPkcs10, evs, st, [], []⟩
          else
            match Server.tlsUidAuth cfg.srv.enablePop env.tls.uid csr.chal with
            | .ub => .ub
            | .fail => .done ⟨.authFailTlsuid, evs, st, [], []⟩
            | .ok => forward cfg env k rq evs st

/-- `est_proxy_handle_cacerts`, `est_proxy.c` lines 1165-1328.  An authentication failure is handed on. -/
def handleCacerts (cfg : Cfg) (env : Env) (seg : Option (List Nat)) (st : State) : Run Out :=
  match st.caCerts with
  | some certs =>
    match cfg.srv.transport with
    | .http =>
      let w := sendCacerts env.out certs
      .done ⟨w.2, w.1, st, [], []⟩
    | .coap => .done ⟨.none, [], st, [], []⟩
  | none =>
    match getClient cfg env st with
    | none => .done ⟨.noCtx, [], st, [], []⟩
    | some pc0 =>
      let pc := chooseSeg cfg seg pc0
      match Flow.getCacerts cfg.lib { cfg.up with seg := pc.seg } (env.conn 0) pc.c with
      | none => .ub
      | some (r, c') =>
        let st' := { setClient st env.thread { pc with c := c' } with delay := c'.delay }
        let evs := r.sent.map PEv.up
        if r.err ≠ .none then .done ⟨relay r.err, evs, st', [], []⟩
        else
          match cfg.srv.transport with
          | .coap =>
            .done ⟨.none, evs,
              { setClient st' env.thread { pc with c := { c' with cacerts := none } } with
                caCerts := c'.cacerts }, [], []⟩
          | .http =>
            match c'.cacerts with
            | none => .done ⟨.httpNotFound, evs, st', [], []⟩
            | some certs =>
              let w := sendCacerts env.out certs
              .done ⟨w.2, evs ++ w.1, st', [], []⟩

/-- The end of `est_proxy_handle_csr_attrs`, `est_proxy.c` lines 1522-1533. -/
def giveAttrs (cfg : Cfg) (env : Env) (evs : List PEv) (st : State) (d : List Nat) : Out :=
  match cfg.srv.transport with
  | .http =>
    let w := sendAttrs env.out env.retryOut st.delay d
    ⟨w.2, evs ++ w.1, st, [], []⟩
  | .coap => ⟨.none, evs, st, d, []⟩

/-- `est_proxy.c` lines 1448-1465, 1492-1507: attributes that cannot be used are answered with "no content". -/
def noAttrs (cfg : Cfg) (env : Env) (evs : List PEv) (st : State) : Out :=
  match cfg.srv.transport with
  | .http => ⟨.none, evs ++ sendError env.retryOut st.delay .httpNoContent, st, [], []⟩
  | .coap => ⟨.httpNoContent, evs, st, [], []⟩

/-- `est_proxy_handle_csr_attrs`, `est_proxy.c` lines 1336-1534. -/
def handleAttrs (cfg : Cfg) (env : Env) (seg : Option (List Nat)) (st : State) : Run Out :=
  match getClient cfg env st with
  | none => .done ⟨.noCtx, [], st, [], []⟩
  | some pc0 =>
    let pc := chooseSeg cfg seg pc0
    match Flow.getCsrattrs cfg.lib { cfg.up with seg := pc.seg } (env.conn 0) pc.c with
    | none => .ub
    | some (r, c') =>
      let st' := { setClient st env.thread { pc with c := { c' with attrs := none } } with
        delay := c'.delay }
      let evs := r.sent.map PEv.up
      if r.err ≠ .none ∧ ¬ (r.err = .httpNoContent ∧ cfg.srv.enablePop) then
        .done ⟨relay r.err, evs, st', [], []⟩
      else
        let d := r.data.getD []
        if cfg.srv.enablePop then
          if d = [] then .done (giveAttrs cfg env evs st' Server.popOnly)
          else
            let p := cfg.attrLib.parseAttrs d
            if p.1 ≠ .none then .done (noAttrs cfg env evs st')
            else if p.2 then .done (giveAttrs cfg env evs st' d)
            else
              match cfg.attrLib.addPop d with
              | .error _ => .done (noAttrs cfg env evs st')
              | .ok d' => .done (giveAttrs cfg env evs st' d')
        else .done (giveAttrs cfg env evs st' d)

/-! ## The dispatcher -/

/-- What `est_proxy_http_request` still has to send when a handler is through.  The
calls of est_send_http_error in `est_proxy.c` lines 1593-1970. -/
structure Todo where
  rc : EstErr
  send : Option EstErr
  evs : List PEv
  st : State

/-- What the dispatcher does with the return code of a handler; `pending` is the code of a
request already answered with a challenge.  `est_proxy.c` lines 1636-1645, 1739, 1833,
1903 and 1957. -/
def todo (o : Out) : Todo :=
  if o.rc = .none ∨ o.rc = .authPending then ⟨.none, none, o.evs, o.st⟩
  else ⟨o.rc, some o.rc, o.evs, o.st⟩

/-- A request line and headers: `est_parse_uri`'s result, method, content type, body (`none`:
no Content-Length header).  The arguments of `est_proxy.c` lines 1552-1560. -/
structure HttpReq where
  method : List Nat
  uri : EstUri.Res
  ct : Option (List Nat)
  body : Option (List Nat)
  hdr : HdrRes × Cred

/-- `est_proxy.c` lines 1636-1957. -/
def runTodo : Run Out → Run Todo
  | .ub => .ub
  | .endless => .endless
  | .done o => .done (todo o)

/-- `est_proxy_http_request`, `est_proxy.c` lines 1552-1985, up to the call of `est_send_http_error`.  The
BRSKI operations are answered with 404 and success. -/
def dispatch (cfg : Cfg) (env : Env) (rq : HttpReq) (st : State) : Run Todo :=
  match rq.uri with
  | .ub => .ub
  | .err .invalidPathSegment => .done ⟨.httpInvalidPathSegment, some .httpInvalidPathSegment, [], st⟩
  | .err .badReq => .done ⟨.httpBadReq, some .httpBadReq, [], st⟩
  | .ok op seg =>
    match op with
    | .cacerts =>
      if rq.method ≠ [71, 69, 84] then .done ⟨.wrongMethod, some .wrongMethod, [], st⟩
      else runTodo (handleCacerts cfg env seg st)
    | .csrattrs =>
      if rq.method ≠ [71, 69, 84] then .done ⟨.wrongMethod, some .wrongMethod, [], st⟩
      else runTodo (handleAttrs cfg env seg st)
    | .simpleEnroll | .simpleReenroll | .serverKeygen =>
      if rq.method ≠ [80, 79, 83, 84] then .done ⟨.wrongMethod, some .wrongMethod, [], st⟩
      else
        match rq.ct, rq.body with
        | none, _ => .done ⟨.badContentType, some .badPkcs10, [], st⟩
        | some _, none => .done ⟨.badContentLen, some .badPkcs10, [], st⟩
        | some ct, some body =>
          let k : Kind := match op with
            | .simpleEnroll => .enroll
            | .simpleReenroll => .reenroll
            | _ => .keygen
          runTodo (handleEnroll cfg env k ⟨ct, body, seg, rq.hdr⟩ st)
    | .reqVoucher | .voucherStatus | .enrollStatus => .done ⟨.none, some .httpNotFound, [], st⟩

/-- The rest: `est_send_http_error` in the state of the proxy context at that time.
`est_proxy.c` lines 1593-1985. -/
def finish (env : Env) (t : Todo) (st : State) : List PEv :=
  match t.send with
  | none => []
  | some e => sendError env.retryOut st.delay e

/-- A request that is handled without interruption: return code, effects, state.
`est_proxy.c` lines 1552-1985. -/
def request (cfg : Cfg) (env : Env) (rq : HttpReq) (st : State) :
    Run (EstErr × List PEv × State) :=
  match dispatch cfg env rq st with
  | .ub => .ub
  | .endless => .endless
  | .done t => .done (t.rc, t.evs ++ finish env t t.st, t.st)

/-- Requests one after the other.  Calls of `est_proxy.c` lines 1552-1985. -/
def requests (cfg : Cfg) (st : State) : List (Env × HttpReq) →
    Run (List (EstErr × List PEv) × State)
  | [] => .done ([], st)
  | (env, rq) :: rest =>
    match request cfg env rq st with
    | .ub => .ub
    | .endless => .endless
    | .done (rc, evs, st') =>
      match requests cfg st' rest with
      | .ub => .ub
      | .endless => .endless
      | .done (rs, st'') => .done ((rc, evs) :: rs, st'')

/-- The start of a proxy: `est_proxy_init` with or without CA certificates of its own.
`est_proxy.c` lines 2100-2260. -/
def State.init (caCerts : Option (List Nat)) : State := ⟨0, caCerts, fun _ => none⟩

end Verif.Proxy
