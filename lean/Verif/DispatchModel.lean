import Verif.ServerModel

/-!
# Model of the remaining server handlers and of the HTTP dispatcher

Source: `/repo/src/est/est_server.c`; the lines are given with each definition.
-/
namespace Verif.Server

/-! ## Server-side key generation -/

/-- The parts of `est_handle_server_keygen` done by OpenSSL and the application.  Called
in `est_server.c` lines 1928-2060. -/
structure KeygenCfg where
  /-- `est_server_keygen_pkcs10_cb`: gets the request and the key text, returns
  the CA's answer and the key text to be sent (it may replace it) -/
  caCb : Option (CaReq → List Nat → CaRes × List Nat)
  /-- `keygen_cb`; the result is `none` if no key was produced or an error was
  returned; a key is represented by the base64 text of its DER form -/
  keygenCb : Option (Option (List Nat))
  /-- `X509_REQ_set_pubkey` with the new key -/
  setPubkey : List Nat → Csr → Option Csr
  /-- `est_X509_REQ_sign` with the new key -/
  sign : List Nat → Csr → Option Csr
  /-- `i2d_X509_REQ_bio` through the base64 filter -/
  encode : Csr → List Nat

/-- Fixed texts around the two parts of the multipart response, `est_server.c` lines
2098-2132. -/
structure Multi where
  keyHdr : List Nat
  certHdr : List Nat
  final : List Nat

/-- The five writes after the HTTP header, `est_server.c` lines 2168-2199; `n i` is the number of
bytes the TLS layer takes of write `i`.  Stops at the first failing write. -/
def writeAll (n : Nat → Nat) : Nat → List (List Nat) → List Ev × Bool
  | _, [] => ([], true)
  | i, b :: bs =>
    let w := writeBody (n i) b
    if w.2 then
      let r := writeAll n (i + 1) bs
      (w.1 ++ r.1, r.2)
    else (w.1, false)

/-- The request handed to the CA for a key generation: the body is the re-signed CSR.
`est_server.c` lines 2016-2060. -/
def keygenReq (cfg : Cfg) (tls : Tls) (rq : Req) (a : AuthOut) (body : List Nat) : CaReq :=
  ⟨body, if cfg.transport = .http then a.user.getD rq.connUser else [], tls.peer.isSome, rq.seg⟩

/-- End of `est_handle_server_keygen`, `est_server.c` lines 2060-2235: what is done with the answer of
the CA. -/
def keygenAnswer (cfg : Cfg) (mp : Multi) (net : Net) (bodyOut : Nat → Nat)
    (r : CaRes × List Nat) (evs : List Ev) (u : List Nat) : Out :=
  if r.1.rc = .none ∧ r.1.cert ≠ [] then
    match cfg.transport with
    | .coap => ⟨.none, evs, u⟩
    | .http =>
      if !net.hdrOut then ⟨.httpWrite, evs, u⟩
      else
        let w := writeAll bodyOut 0 [mp.keyHdr, r.2, mp.certHdr, r.1.cert, mp.final]
        ⟨if w.2 then .none else .httpWrite, evs ++ [.head 200] ++ w.1, u⟩
  else if r.1.rc = .caEnrollRetry then ⟨.caEnrollRetry, evs, u⟩
  else ⟨.caEnrollFail, evs, u⟩

/-- The new key is put into the parsed CSR, which is signed with it and encoded again,
`est_server.c` lines 1941-2015; `key` is the result of the key generation callback.  Result: the key text,
the new CSR, or the error. -/
def rekey (k : KeygenCfg) (genKey : Option (List Nat)) (csr : Csr) :
    Except EstErr (List Nat × Csr) :=
  match genKey with
  | none => .error .noKey
  | some key =>
    match k.setPubkey key csr with
    | none => .error .badPkcs10
    | some csr1 =>
      match k.sign key csr1 with
      | none => .error .x509Sign
      | some csr2 => if checkCsr csr2 then .ok (key, csr2) else .error .badPkcs10

/-- Middle of `est_handle_server_keygen`, `est_server.c` lines 1928-2060. -/
def keygenCsr (cfg : Cfg) (k : KeygenCfg) (mp : Multi) (tls : Tls) (net : Net)
    (bodyOut : Nat → Nat) (parse : List Nat → Option Csr)
    (ca : CaReq → List Nat → CaRes × List Nat) (genKey : Option (List Nat)) (rq : Req)
    (a : AuthOut) : Option Out :=
  let u := a.user.getD rq.connUser
  match a.csr.or (parse rq.body) with
  | none => some ⟨.badPkcs10, a.evs, u⟩
  | some csr =>
    match rekey k genKey csr with
    | .error e => some ⟨e, a.evs, u⟩
    | .ok (key, csr2) =>
      let body := k.encode csr2
      let ra := tls.peer.isSome && tls.cmcRA
      match (if ra then Pop.ok else tlsUidAuth cfg.enablePop tls.uid csr2.chal) with
      | .ub => none
      | .fail => some ⟨.authFailTlsuid, a.evs, u⟩
      | .ok =>
        if cfg.enforceAttrs && !cfg.attrsPresent body then some ⟨.csrAttrMissing, a.evs, u⟩
        else
          let q := keygenReq cfg tls rq a body
          some (keygenAnswer cfg mp net bodyOut (ca q key) (a.evs ++ [.ca .keygen q]) u)

/-- `est_handle_server_keygen`, `est_server.c` lines 1855-2235.  The check that the boundary
constant is at most 70 characters always passes. -/
def serverKeygen (cfg : Cfg) (k : KeygenCfg) (mp : Multi) (tls : Tls) (net : Net)
    (bodyOut : Nat → Nat) (parse : List Nat → Option Csr) (rq : Req) : Option Out :=
  match k.caCb with
  | none => some ⟨.nullCallback, [], rq.connUser⟩
  | some ca =>
    match k.keygenCb with
    | none => some ⟨.nullCallback, [], rq.connUser⟩
    | some genKey =>
      if cfg.transport = .http ∧ !ctPkcs10 rq.ct then some ⟨.badContentType, [], rq.connUser⟩
      else
        match enrollAuth cfg tls rq.hdr parse .keygen rq.body with
        | none => none
        | some a =>
          let u := a.user.getD rq.connUser
          match a.st with
          | .httpAuthPending => some ⟨.authPending, a.evs, u⟩
          | .csrParseFail => some ⟨.badPkcs10, a.evs, u⟩
          | .unauthorized => some ⟨.authFail, a.evs, u⟩
          | .httpAuth | .srpAuth | .certAuth =>
            keygenCsr cfg k mp tls net bodyOut parse ca genKey rq a

/-! ## Distribution of CA certificates and CSR attributes -/

/-- `est_server_handle_cacerts` (`est_server.c` lines 234-314) and `est_handle_cacerts` (lines
187-225) over HTTP.  `cb` is the result of the application's callback if there is
one, `stored` the locally configured chain. -/
def handleCacerts (net : Net) (cb : Option (Option (List Nat))) (stored : Option (List Nat)) :
    EstErr × List Ev :=
  let send (c : List Nat) : EstErr × List Ev :=
    if !net.hdrOut then (.httpWrite, [])
    else
      let w := writeBody net.bodyOut c
      (if w.2 then .none else .httpWrite, [.head 200] ++ w.1)
  match cb with
  | some (some c) => send c
  | some none => (.httpNoContent, [])
  | none =>
    match stored with
    | some c => send c
    | none => (.httpNoContent, [])

/-- `est_send_csrattr_data`, `est_server_http.c` lines 1855-1900. -/
def sendCsrattr (net : Net) (d : List Nat) : EstErr × List Ev :=
  if d = [] then (.none, sendError net.retryOut .httpNoContent)
  else if !net.hdrOut then (.httpWrite, [])
  else
    let w := writeBody net.bodyOut d
    (if w.2 then .none else .httpWrite, [.head 200] ++ w.1)

/-- The attribute helpers of `est.c` as input: `est_asn1_parse_attributes` (error and
presence of challengePassword) and `est_add_challengePassword`.  `est.c` lines
1376-1555, called in `est_server.c` lines 2241-2367. -/
structure AttrLib where
  parseAttrs : List Nat → EstErr × Bool
  addPop : List Nat → Except EstErr (List Nat)

/-- `EST_CSRATTRS_POP`, `est_locl.h`: the attribute list with only
challengePassword.  Sent by `est_server.c` lines 2241-2367. -/
def popOnly : List Nat := [77, 65, 115, 71, 67, 83, 113, 71, 83, 73, 98, 51, 68, 81, 69, 74, 66, 119, 61, 61]

/-- `est_handle_csr_attrs`, `est_server.c` lines 2241-2367, over HTTP.  `cb`: result of the
application's callback if there is one (the empty list for NULL or length 0). -/
def handleCsrAttrs (net : Net) (lib : AttrLib) (enablePop : Bool) (cb : Option (List Nat))
    (stored : Option (List Nat)) : EstErr × List Ev :=
  match cb, stored with
  | none, none =>
    if enablePop then sendCsrattr net popOnly else (.httpNoContent, [])
  | some d, _ =>
    let p := lib.parseAttrs d
    if d ≠ [] ∧ p.1 ≠ .none then (p.1, [])
    else if enablePop then
      if d = [] then sendCsrattr net popOnly
      else if p.2 then sendCsrattr net d
      else
        match lib.addPop d with
        | .error e => (e, [])
        | .ok d' => sendCsrattr net d'
    else sendCsrattr net d
  | none, some d => sendCsrattr net d

/-! ## BRSKI -/

/-- `est_brski_auth`, `est_server.c` lines 767-907; over CoAP a missing callback is called
(line 868), which is undefined behaviour. -/
def brskiAuth (cfg : Cfg) (tls : Tls) (hdr : HdrRes × Cred) : Option (AuthState × List Ev) :=
  match checkTlsCert tls with
  | none => some (.unauthorized, [])
  | some st0 =>
    let rv := if st0 ≠ .certAuth ∧ tls.srpUser then AuthState.srpAuth else st0
    match cfg.transport with
    | .http =>
      match cfg.authCb with
      | none => some (rv, [])
      | some cb =>
        if rv = .unauthorized ∨ cfg.requireHttpAuth then
          let eca := cfg.ecaEnabled && rv == .certAuth
          let e := handleEca cfg tls (fun _ => none) [] false
          let pr := if eca then e.1 else hdr.1
          let cred := if eca then e.2.1 else hdr.2
          match pr with
          | .good => some (if cb cred then .httpAuth else .unauthorized, [.askApp cred])
          | .missing => some (.httpAuthPending, challenge cfg.authMode)
          | _ => some (.unauthorized, [])
        else some (rv, [])
    | .coap =>
      if rv ≠ .certAuth then some (.unauthorized, [])
      else if cfg.ecaEnabled then
        let e := handleEca cfg tls (fun _ => none) [] false
        match e.1 with
        | .good =>
          match cfg.authCb with
          | none => none
          | some cb => some (if cb e.2.1 then rv else .unauthorized, [.askApp e.2.1])
        | _ => some (.unauthorized, [])
      else some (rv, [])

/-- `EST_BRSKI_CALLBACK_RC`, `est.h`.  Read in `est_server.c` lines 2374-2681. -/
inductive BrskiRc
  | success | failure | invalidParameter | retry
deriving DecidableEq, Repr

/-- The three BRSKI requests.  `est_server.c` lines 2374-2681. -/
inductive BrskiOp
  | voucher | voucherStatus | enrollStatus
deriving DecidableEq, Repr

/-- The content types the handlers demand (`est_locl.h` lines 253-256), compared
with the terminating NUL, so exactly. -/
def brskiCt (op : BrskiOp) (ct : List Nat) : Bool :=
  match op with
  | .voucher =>
    ct == [97, 112, 112, 108, 105, 99, 97, 116, 105, 111, 110, 47, 112, 107, 99, 115, 55, 45, 109, 105, 109, 101, 59, 32, 115, 109, 105, 109, 101, 45, 116, 121, 112, 101, 61, 118, 111, 117, 99, 104, 101, 114, 45, 114, 101, 113, 117, 101, 115, 116] || ct == [97, 112, 112, 108, 105, 99, 97, 116, 105, 111, 110, 47, 106, 115, 111, 110]
  | _ => ct == [97, 112, 112, 108, 105, 99, 97, 116, 105, 111, 110, 47, 106, 115, 111, 110]

/-- Effects of a BRSKI request: as for the others, and the call of the
application's callback.  The effects of `est_server.c` lines 2374-3081. -/
inductive BEv
  | ev (e : Ev)
  | brskiCb (op : BrskiOp) (body : List Nat)
deriving DecidableEq, Repr

/-- What a BRSKI handler does with the answer of the application's callback, `est_server.c` lines
2446-2511, 2566-2594, 2653-2681. -/
def brskiAnswer (net : Net) (op : BrskiOp) (r : BrskiRc × List Nat) : EstErr × List Ev :=
  match op with
  | .voucher =>
    if r.1 = .success ∧ r.2 ≠ [] then
      if !net.hdrOut then (.httpWrite, [])
      else
        let w := writeBody net.bodyOut r.2
        (if w.2 then .none else .httpWrite, [Ev.head 200] ++ w.1)
    else if r.1 = .retry then
      if net.hdrOut then (.none, [.head 202]) else (.httpWrite, [])
    else (.caEnrollFail, [])
  | _ =>
    if r.1 = .success then
      if net.hdrOut then (.none, [.head 200]) else (.httpWrite, [])
    else (.caEnrollFail, [])

/-- `est_brski_handle_voucher_req` (`est_server.c` lines 2374-2511), `est_brski_handle_voucher_status`
(2517-2594), `est_brski_handle_enroll_status` (2603-2681).  `cb` is the application's
callback for this operation: result code and, for a voucher request, the
voucher. -/
def handleBrski (cfg : Cfg) (tls : Tls) (net : Net) (op : BrskiOp)
    (cb : Option (List Nat → BrskiRc × List Nat)) (rq : Req) : Option (EstErr × List BEv) :=
  match cb with
  | none => some (.nullCallback, [])
  | some f =>
    if !brskiCt op rq.ct then some (.badContentType, [])
    else
      match brskiAuth cfg tls rq.hdr with
      | none => none
      | some (st, evs0) =>
        match st with
        | .httpAuthPending => some (.authPending, evs0.map BEv.ev)
        | .httpAuth | .srpAuth | .certAuth =>
          let r := brskiAnswer net op (f rq.body)
          some (r.1, evs0.map BEv.ev ++ [.brskiCb op rq.body] ++ r.2.map BEv.ev)
        | _ => some (.authFail, evs0.map BEv.ev)

/-! ## The dispatcher -/

/-- Which handler was entered.  The calls in `est_server.c` lines 2700-3081. -/
inductive Handler
  | cacerts | csrattrs | enroll | reenroll | keygen | brski (op : BrskiOp)
deriving DecidableEq, Repr

/-- Everything a request is served with.  What `est_server.c` lines 2700-3081 read. -/
structure Server where
  cfg : Cfg
  kg : KeygenCfg
  mp : Multi
  cacertsCb : Option (Option (List Nat))
  caCerts : Option (List Nat)
  lib : AttrLib
  csrCb : Option (List Nat)
  csrattrs : Option (List Nat)
  brskiCb : BrskiOp → Option (List Nat → BrskiRc × List Nat)
  parse : List Nat → Option Csr

/-- Result of the dispatcher: return code, effects, which handler ran.  The outcome of
`est_server.c` lines 2700-3081. -/
structure DOut where
  rc : EstErr
  evs : List BEv
  handler : Option Handler := none

/-- `est_send_http_error` after a handler failed.  Called in `est_server.c` lines
2770-3060. -/
def orError (net : Net) (h : Handler) (rc : EstErr) (evs : List BEv) (sendAs : EstErr) : DOut :=
  ⟨rc, evs ++ (sendError net.retryOut sendAs).map BEv.ev, some h⟩

/-- `strncmp (method, "GET", 3) == 0`, `est_server.c` line 2770. -/
def methodGetPrefix (m : List Nat) : Bool := [71, 69, 84].isPrefixOf m
/-- `strncmp (method, "POST", 4) == 0`, `est_server.c` lines 2802, 2993. -/
def methodPostPrefix (m : List Nat) : Bool := [80, 79, 83, 84].isPrefixOf m
/-- `strncmp (method, "GET", 4) == 0`, `est_server.c` line 2969: the terminating NUL takes part. -/
def methodGetExact (m : List Nat) : Bool := m == [71, 69, 84]

/-- `est_http_request`, `est_server.c` lines 2700-3081, for a server context with a TLS
connection (`haveSsl`); `uri` is the result of `est_parse_uri`.  `none`: undefined
behaviour.  The reported event callbacks and timers are left out. -/
def httpRequest (s : Server) (haveSsl : Bool) (tls : Tls) (net : Net) (bodyOut : Nat → Nat)
    (method : List Nat) (uri : EstUri.Res) (ct : Option (List Nat)) (rq : Req) : Option DOut :=
  if !haveSsl then
    some ⟨.noSslCtx, (sendError net.retryOut .noSslCtx).map BEv.ev, none⟩
  else
    match uri with
    | .ub => none
    | .err .invalidPathSegment =>
      some ⟨.httpInvalidPathSegment,
        (sendError net.retryOut .httpInvalidPathSegment).map BEv.ev, none⟩
    | .err .badReq =>
      some ⟨.httpBadReq, (sendError net.retryOut .httpBadReq).map BEv.ev, none⟩
    | .ok op seg =>
      let wrongMethod : DOut :=
        ⟨.wrongMethod, (sendError net.retryOut .wrongMethod).map BEv.ev, none⟩
      let noCt : DOut :=
        ⟨.badContentType, (sendError net.retryOut .badContentType).map BEv.ev, none⟩
      match op with
      | .cacerts =>
        if !methodGetPrefix method then some wrongMethod
        else
          let r := handleCacerts net s.cacertsCb s.caCerts
          some (if r.1 ≠ .none then orError net .cacerts r.1 (r.2.map BEv.ev) r.1
                else ⟨.none, r.2.map BEv.ev, some .cacerts⟩)
      | .csrattrs =>
        if !methodGetExact method then some wrongMethod
        else
          let r := handleCsrAttrs net s.lib s.cfg.enablePop s.csrCb s.csrattrs
          some (if r.1 ≠ .none then orError net .csrattrs r.1 (r.2.map BEv.ev) r.1
                else ⟨.none, r.2.map BEv.ev, some .csrattrs⟩)
      | .simpleEnroll | .simpleReenroll | .serverKeygen =>
        if !methodPostPrefix method then some wrongMethod
        else
          match ct with
          | none => some noCt
          | some c =>
            let rq' := { rq with ct := c, seg := seg }
            let h : Handler := match op with
              | .serverKeygen => .keygen
              | .simpleReenroll => .reenroll
              | _ => .enroll
            let o := match op with
              | .serverKeygen => serverKeygen s.cfg s.kg s.mp tls net bodyOut s.parse rq'
              | .simpleReenroll => simpleEnroll s.cfg tls net s.parse true rq'
              | _ => simpleEnroll s.cfg tls net s.parse false rq'
            o.map fun o =>
              if o.rc ≠ .none ∧ o.rc ≠ .authPending then
                orError net h o.rc (o.evs.map BEv.ev) o.rc
              else ⟨.none, o.evs.map BEv.ev, some h⟩
      | .reqVoucher | .voucherStatus | .enrollStatus =>
        if !methodPostPrefix method then some wrongMethod
        else
          match ct with
          | none => some noCt
          | some c =>
            let b : BrskiOp := match op with
              | .reqVoucher => .voucher
              | .voucherStatus => .voucherStatus
              | _ => .enrollStatus
            (handleBrski s.cfg tls net b (s.brskiCb b) { rq with ct := c, seg := seg }).map fun r =>
              if r.1 ≠ .none ∧ r.1 ≠ .authPending then
                orError net (.brski b) r.1 r.2
                  (if r.1 = .authFail then .authFail else .badPkcs10)
              else ⟨.none, r.2, some (.brski b)⟩

end Verif.Server
