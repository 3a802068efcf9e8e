import Verif.DispatchModel
import Verif.TlsModel

/-!
# Model of the event callbacks of the server

Source: `/repo/src/est/est_server.c`; the lines are given with each definition.
-/
namespace Verif.Event
open Verif.Server
open Verif.Tls (Buf subjFld cstr)

/-! ## Who sent the request -/

/-- What `SSL_get_fd`, `getpeername` and `inet_ntop` find out about the peer.
`est_server.c` lines 4702-4808. -/
inductive Peer
  /-- no descriptor, or `getpeername` fails -/
  | unknown
  /-- an address of another family than IPv4 and IPv6 -/
  | otherFamily
  /-- the port, and the text of the address if `inet_ntop` succeeds -/
  | ip (port : Nat) (text : Option (List Nat))

/-- `est_invoke_enroll_get_ip_port`, `est_server.c` lines 4702-4808, over HTTP: result, address text, port.  The
text is put into a buffer of `INET6_ADDRSTRLEN`, which `inet_ntop` does not exceed. -/
def getIpPort (p : Peer) : EstErr × List Nat × Nat :=
  match p with
  | .unknown => (.syscall, [], 0)
  | .otherFamily => (.unknown, [], 0)
  | .ip port none => (.syscall, [], port)
  | .ip port (some t) => (.none, t, port)

/-- The C string left in a buffer of `EST_MAX_CERT_SUBJ_LEN` + 1 zero bytes after
`est_get_subj_fld_from_cert` was called with the length `EST_MAX_CERT_SUBJ_LEN`.
`est_server.c` lines 4660-4697. -/
def subjText (t : List Nat) : Option (List Nat) :=
  match subjFld (List.replicate 256 0) 255 t with
  | .overrun => none
  | .bytes b => some (cstr b)

/-- `est_invoke_enroll_get_subjs`, `est_server.c` lines 4660-4697: the error and the two texts; `none` if a buffer
is exceeded.  The subjects are given as the text OpenSSL prints; running out of memory is left
out. -/
def getSubjs (peer : Option (List Nat)) (csr : List Nat) :
    Option (EstErr × List Nat × List Nat) :=
  match (match peer with | none => some [] | some t => subjText t), subjText csr with
  | some p, some c =>
    some (if (peer.isSome ∧ p = []) ∨ c = [] then .unknown else .none, p, c)
  | _, _ => none

/-! ## Enrolment events -/

/-- What the application's callback is told.  `src` is `none` if the array handed over was never
written.  The arguments of the callbacks called in `est_server.c` lines 4813-4965. -/
structure Told where
  idSubj : List Nat
  csrSubj : List Nat
  src : Option (List Nat)
  port : Nat
  seg : Option (List Nat)
  ty : ReqType
deriving DecidableEq, Repr

/-- Result of announcing an enrolment request or response: nothing is announced as the CSR cannot be
read; or what the application is told and whether a byte behind an array was written.
The outcomes of `est_server.c` lines 4813-4965. -/
inductive Announced
  | overrun
  | nothing
  | told (t : Told) (stray : Bool)
deriving DecidableEq, Repr

/-- `est_invoke_enroll_req_event_cb`, `est_server.c` lines 4813-4885, and the same part of
`est_invoke_enroll_rsp_event_cb`, lines 4890-4965, with a callback registered.  `csrSubj` is `none`
if the CSR cannot be parsed.  `memzero_s (src_ipstr, INET6_ADDRSTRLEN+1)` clears 47 bytes of an
array of 46. -/
def enrolEvent (peer : Option (List Nat)) (csrSubj : Option (List Nat)) (addr : Peer)
    (seg : Option (List Nat)) (ty : ReqType) : Announced :=
  match csrSubj with
  | none => .nothing
  | some c =>
    match getSubjs peer c with
    | none => .overrun
    | some (rc, p, s) =>
      if rc ≠ .none then .told ⟨p, s, none, 0, seg, ty⟩ false
      else
        let a := getIpPort addr
        .told ⟨p, s, some a.2.1, a.2.2, seg, ty⟩ (decide (46 < 46 + 1))

/-- `est_invoke_endpoint_req_event_cb`, `est_server.c` lines 5012-5057: subject of the peer's certificate, address,
port. -/
def endpointEvent (peer : Option (List Nat)) (addr : Peer) : Option (List Nat × List Nat × Nat) :=
  match (match peer with | none => some [] | some t => subjText t) with
  | none => none
  | some p => some (p, (getIpPort addr).2)

/-! ## Authentication events -/

/-- The variable `pr` of `est_enroll_auth` (`est_server.c` lines 585-758) at its end: `EST_AUTH_ECA_ERR` unless a
header was looked at. -/
def authHdrResult (cfg : Cfg) (tls : Tls) (hdr : HdrRes × Cred) (parse : List Nat → Option Csr)
    (csrBuf : List Nat) : HdrRes :=
  match checkTlsCert tls with
  | none => .ecaErr
  | some st0 =>
    let rv := if st0 ≠ .certAuth ∧ tls.srpUser then AuthState.srpAuth else st0
    match cfg.transport with
    | .http =>
      if cfg.authCb.isSome ∧ (rv = .unauthorized ∨ cfg.requireHttpAuth = true) then
        if cfg.ecaEnabled && rv == .certAuth then (handleEca cfg tls parse csrBuf cfg.ecaCsrCheck).1
        else hdr.1
      else .ecaErr
    | .coap =>
      if rv = .certAuth ∧ cfg.ecaEnabled = true ∧ csrBuf ≠ [] then
        (handleEca cfg tls parse csrBuf cfg.ecaCsrCheck).1
      else .ecaErr

/-- `est_invoke_enroll_auth_result_event_cb`, `est_server.c` lines 4970-5005, as called at the end of
`est_enroll_auth`: whether the result of enhanced certificate authentication is given as validated,
and the authentication state.  `none`: undefined behaviour before. -/
def authEvent (cfg : Cfg) (tls : Tls) (hdr : HdrRes × Cred) (parse : List Nat → Option Csr)
    (ty : ReqType) (csrBuf : List Nat) : Option (Bool × AuthState) :=
  (enrollAuth cfg tls hdr parse ty csrBuf).map fun a =>
    (match authHdrResult cfg tls hdr parse csrBuf with
      | .good => true
      | _ => false, a.st)

/-! ## The events of one request -/

/-- One call of a registered event callback.  The calls in `est_server.c` lines
4813-5057. -/
inductive Call
  | reqStart
  | reqEnd
  | enrolReq (ty : ReqType) (seg : Option (List Nat))
  | enrolRsp (ty : ReqType) (seg : Option (List Nat)) (rc : EstErr)
deriving DecidableEq, Repr

/-- The kind of enrolment an operation stands for.  `est_server.c` lines 2826-2950. -/
def enrolType : EstUri.Op → Option ReqType
  | .simpleEnroll => some .enroll
  | .simpleReenroll => some .reenroll
  | .serverKeygen => some .keygen
  | _ => none

/-- The handler of an enrolment, `est_server.c` lines 2826-2950. -/
def enrolHandler (s : Server) (tls : Tls) (net : Net) (bodyOut : Nat → Nat) (ty : ReqType)
    (rq : Req) : Option Out :=
  match ty with
  | .keygen => serverKeygen s.cfg s.kg s.mp tls net bodyOut s.parse rq
  | .reenroll => simpleEnroll s.cfg tls net s.parse true rq
  | .enroll => simpleEnroll s.cfg tls net s.parse false rq

/-- The event callbacks called by `est_http_request`, `est_server.c` lines 2700-3081, all of them being registered,
except for the authentication results.  The codes are those of `httpRequest`. -/
def calls (s : Server) (haveSsl : Bool) (tls : Tls) (net : Net) (bodyOut : Nat → Nat)
    (method : List Nat) (uri : EstUri.Res) (ct : Option (List Nat)) (rq : Req) :
    Option (List Call) :=
  if !haveSsl then some []
  else
    match uri with
    | .ub => none
    | .err _ => some [.reqStart]
    | .ok op seg =>
      match enrolType op with
      | some ty =>
        if !methodPostPrefix method then some [.reqStart]
        else
          match ct with
          | none => some [.reqStart]
          | some c =>
            (enrolHandler s tls net bodyOut ty { rq with ct := c, seg := seg }).map fun o =>
              let readable := (s.parse rq.body).isSome
              [.reqStart] ++ (if readable then [.enrolReq ty seg] else []) ++
                (if readable then [.enrolRsp ty seg o.rc] else []) ++
                (if o.rc ≠ .none ∧ o.rc ≠ .authPending then [] else [.reqEnd])
      | none =>
        (httpRequest s haveSsl tls net bodyOut method uri ct rq).map fun d =>
          [.reqStart] ++ (if d.rc ≠ .none then [] else [.reqEnd])

end Verif.Event
