import Verif.HttpConnModel
import Verif.UrlModel
import Verif.ChallengeModel
import Verif.ProxyModel

/-!
# Model of the HTTPS server from received bytes to sent bytes

Source: `/repo/src/est/est_server_http.c` lines 365-399 (`mg_send_http_error`), 1211-1275
(`est_mg_handler`, `handle_request`), 1503-1508 (`is_valid_uri`), 1510-1573 (the first request
in `process_new_connection`), `/repo/src/est/est_server.c` lines 59-152 (texts of the errors),
`/repo/src/est/est_locl.h` lines 207-221.

The parts are those of the other modules: reading (`HttpConn`), parsing (`HttpHdr`), the path
(`Url`, `EstUri`), the credentials (`AuthHdr`), the handlers (`Server`), and the texts that are
written (`Proxy.head200`, `Multipart`, `ClientResp`, `Challenge`).  One request on a new
connection is served.  BRSKI operations are left out, every write is complete.
-/
namespace Verif.Wire
open Verif.HttpHdr (getHeader isSpace caseEq)
open Verif.ClientResp (Mode decimal errorText retryText numVal isDigit splitSign)
open Verif.Server (AuthMode Cred HdrRes DOut BEv)

/-- A server: its configuration and callbacks, the TLS connection, `est_parse_uri` of the build,
what the base64 decoder makes of characters outside the alphabet, the realm, the time,
`enable_keepalives`, and a bound that no write exceeds.  What `est_server_http.c`
lines 1211-1285 and 1510-1573 read. -/
structure Site where
  srv : Server.Server
  tls : Server.Tls
  uri : List Nat → EstUri.Res
  odd : Bool → List Nat → List Nat
  realm : List Nat
  time : Nat
  keep : Bool
  out : Nat

/-- `MAX_REQUEST_SIZE`, `est_server_http.c` line 103. -/
def bufSize : Nat := 16384

/-- `strtoll (t, NULL, 10)`.  Called at `est_server_http.c` line 1548. -/
def strtoll (t : List Nat) : Int :=
  let p := splitSign (t.dropWhile isSpace)
  let n : Int := numVal (p.2.takeWhile isDigit)
  if p.1 then max (-n) (-(2 ^ 63)) else min n (2 ^ 63 - 1)

/-- `conn->content_len`, `est_server_http.c` lines 1547-1554. -/
def contentLen (q : HttpHdr.Req) : Int :=
  match getHeader q.hdrs [67, 111, 110, 116, 101, 110, 116, 45, 76, 101, 110, 103, 116, 104] with
  | some v => strtoll v
  | none => if caseEq q.method [80, 79, 83, 84] || caseEq q.method [80, 85, 84] then -1 else 0

/-- `is_valid_uri`, `est_server_http.c` lines 1503-1508. -/
def validUri (u : List Nat) : Bool := u.head? == some 47 || u == [42]

/-- The two modes of authentication, the one of `est.h` in both models.  `est.h` lines
293-299. -/
def toMode : AuthMode → Mode
  | .none => .none
  | .basic => .basic
  | .digest => .digest
  | .token => .token
  | .fail => .fail

/-- `est.h` lines 293-299. -/
def ofMode : Mode → AuthMode
  | .none => .none
  | .basic => .basic
  | .digest => .digest
  | .token => .token
  | .fail => .fail

/-- A field of `EST_HTTP_AUTH_HDR`: NULL, or a string with its NUL.  `est.h` lines
439-450. -/
def field : Option (List Nat) → List Nat
  | none => [0]
  | some v => 1 :: (v ++ [0])

/-- The credentials as the application sees them; the fields other than user and password are
put one after the other.  `est.h` lines 439-450. -/
def credOf (ah : AuthHdr.Ah) : Cred :=
  ⟨ofMode ah.mode, ah.user.getD [], ah.pwd.getD [],
    field ah.uri ++ (field ah.nonce ++ (field ah.nc ++ (field ah.cnonce ++ (field ah.qop ++
      (field ah.response ++ field ah.token)))))⟩

/-- The outcome of `mg_parse_auth_header` for the handlers; `none` is undefined behaviour (also
where the handlers would not look at the header).  `est_server_http.c` lines
1002-1067. -/
def hdrOf : AuthHdr.Parsed → Option (HdrRes × Cred)
  | .ub => none
  | .missing => some (.missing, ⟨.none, [], [], []⟩)
  | .bad => some (.bad, ⟨.none, [], [], []⟩)
  | .good ah _ => some (.good, credOf ah)

/-- The explanations, `est_locl.h` lines 207-221. -/
def explain : EstErr → List Nat
  | .httpNoContent | .httpBadReq => []
  | .csrAttrMissing => [67, 83, 82, 32, 65, 116, 116, 114, 105, 98, 117, 116, 101, 115, 32, 109, 105, 115, 115, 105, 110, 103, 32, 105, 110, 32, 114, 101, 113, 117, 101, 115, 116, 46] ++ [10]
  | .badAsn1Hex => [73, 110, 118, 97, 108, 105, 100, 32, 111, 114, 32, 99, 111, 114, 114, 117, 112, 116, 101, 100, 32, 65, 83, 78, 49, 32, 100, 97, 116, 97, 32, 105, 110, 32, 114, 101, 113, 117, 101, 115, 116, 46] ++ [10]
  | .badPkcs10 => [73, 110, 118, 97, 108, 105, 100, 32, 111, 114, 32, 99, 111, 114, 114, 117, 112, 116, 101, 100, 32, 112, 107, 99, 115, 49, 48, 32, 114, 101, 113, 117, 101, 115, 116, 46] ++ [10]
  | .badContentType => [73, 110, 118, 97, 108, 105, 100, 32, 99, 111, 110, 116, 101, 110, 116, 32, 116, 121, 112, 101, 32, 117, 115, 101, 100, 46] ++ [10]
  | .wrongMethod =>
    [73, 110, 118, 97, 108, 105, 100, 32, 72, 84, 84, 80, 32, 109, 101, 116, 104, 111, 100, 32, 117, 115, 101, 100, 46, 32, 32, 69, 105, 116, 104, 101, 114, 32, 71, 69, 84, 32, 111, 114, 32, 80, 79, 83, 84, 32, 114, 101, 113, 117, 105, 114, 101, 100, 32, 100, 101, 112, 101, 110, 100, 105, 110, 103, 32, 111, 110, 32, 116, 104, 101, 32, 114, 101, 113, 117, 101, 115, 116, 32, 116, 121, 112, 101, 46] ++ [10]
  | .noSslCtx => [65, 110, 32, 117, 110, 107, 110, 111, 119, 110, 32, 84, 76, 83, 32, 101, 114, 114, 111, 114, 32, 104, 97, 115, 32, 111, 99, 99, 117, 114, 101, 100, 46] ++ [10]
  | .authFail => [84, 104, 101, 32, 115, 101, 114, 118, 101, 114, 32, 119, 97, 115, 32, 117, 110, 97, 98, 108, 101, 32, 116, 111, 32, 97, 117, 116, 104, 111, 114, 105, 122, 101, 32, 116, 104, 101, 32, 114, 101, 113, 117, 101, 115, 116, 46] ++ [10]
  | .authFailTlsuid => [80, 114, 111, 111, 102, 32, 111, 102, 32, 80, 111, 115, 115, 101, 115, 115, 105, 111, 110, 32, 77, 105, 115, 109, 97, 116, 99, 104, 46] ++ [10]
  | .httpNotFound => [82, 101, 113, 117, 101, 115, 116, 101, 100, 32, 99, 111, 110, 116, 101, 110, 116, 32, 105, 115, 32, 99, 117, 114, 114, 101, 110, 116, 108, 121, 32, 110, 111, 116, 32, 97, 118, 97, 105, 108, 97, 98, 108, 101, 32, 111, 110, 32, 116, 104, 101, 32, 115, 101, 114, 118, 101, 114, 46] ++ [10]
  | .httpInvalidPathSegment => [84, 104, 101, 32, 112, 97, 116, 104, 32, 115, 112, 101, 99, 105, 102, 105, 101, 100, 32, 105, 115, 32, 110, 111, 116, 32, 114, 101, 99, 111, 103, 110, 105, 122, 101, 100, 46] ++ [10]
  | .httpLocked => [84, 104, 101, 32, 99, 111, 110, 116, 101, 110, 116, 32, 97, 116, 116, 101, 109, 112, 116, 101, 100, 32, 116, 111, 32, 98, 101, 32, 97, 99, 99, 101, 115, 115, 101, 100, 32, 105, 115, 32, 108, 111, 99, 107, 101, 100, 46] ++ [10]
  | .httpUnsupported => [65, 110, 32, 101, 114, 114, 111, 114, 32, 111, 99, 99, 117, 114, 114, 101, 100, 32, 119, 104, 105, 108, 101, 32, 99, 111, 109, 109, 117, 110, 105, 99, 97, 116, 105, 110, 103, 32, 116, 111, 32, 116, 104, 101, 32, 117, 112, 115, 116, 114, 101, 97, 109, 32, 115, 101, 114, 118, 101, 114, 46] ++ [10]
  | .ipConnect => [84, 104, 101, 114, 101, 32, 119, 97, 115, 32, 97, 110, 32, 105, 115, 115, 117, 101, 32, 99, 111, 110, 110, 101, 99, 116, 105, 110, 103, 32, 116, 111, 32, 116, 104, 101, 32, 117, 112, 115, 116, 114, 101, 97, 109, 32, 115, 101, 114, 118, 101, 114, 46] ++ [10]
  | .caEnrollFail => [65, 110, 32, 101, 114, 114, 111, 114, 32, 104, 97, 115, 32, 111, 99, 99, 117, 114, 101, 100, 32, 100, 117, 114, 105, 110, 103, 32, 101, 110, 114, 111, 108, 108, 109, 101, 110, 116, 46] ++ [10]
  | _ => [65, 110, 32, 117, 110, 107, 110, 111, 119, 110, 32, 101, 114, 114, 111, 114, 32, 104, 97, 115, 32, 111, 99, 99, 117, 114, 101, 100, 46] ++ [10]

/-- The body bytes of a response.  The calls of mg_write in `est_server.c` lines
187-225, 1803-1849 and 2168-2199. -/
def bodyOf : List BEv → List Nat
  | [] => []
  | .ev (.body b) :: es => b ++ bodyOf es
  | _ :: es => bodyOf es

/-- The header of a response with status 200 (`est_server.c` lines 187-225, 1803-1816, 2128-2142;
est_server_http.c 1855-1900). -/
def head (h : Option Server.Handler) (n : Nat) : List Nat :=
  match h with
  | some .cacerts => Proxy.head200 Proxy.ctCacerts n
  | some .csrattrs => Proxy.head200 Proxy.ctAttrs n
  | some .keygen => Multipart.headText Multipart.serverBoundary n
  | _ => Proxy.head200 Proxy.ctCert n

/-- `suggest_connection_header`, `est_server_http.c` lines 363-366, after `status` was stored. -/
def keepAfter (s : Site) (q : HttpHdr.Req) (status : Nat) : Bool :=
  HttpHdr.shouldKeepAlive ⟨false, status, s.keep, some q.version, q.hdrs⟩

/-- The bytes of one effect.  A status 401 is a challenge if the handler did not fail.
`est_server.c` lines 59-225, 1803-1849 and 2128-2199, `est_server_http.c` lines 371-399
and 1069-1112. -/
def render (s : Site) (q : HttpHdr.Req) (d : DOut) : BEv → List Nat
  | .ev (.head st) =>
    if st = 200 then head d.handler (bodyOf d.evs).length
    else if st = 202 then retryText s.srv.cfg.retryPeriod
    else if st = 401 ∧ d.rc = .none then
      Challenge.challengeText (toMode s.srv.cfg.authMode) s.realm s.time
    else errorText st (explain d.rc) (keepAfter s q st)
  | .ev (.body b) => b
  | _ => []

/-- What a request leads to: the bytes written and the effects.  The effects of
`est_server_http.c` lines 1510-1573. -/
structure Served where
  text : List Nat
  evs : List BEv

/-- `handle_request` and `est_mg_handler`, `est_server_http.c` lines 1211-1275, for a request and its body;
`none` is undefined behaviour. -/
def handle (s : Site) (q : HttpHdr.Req) (body : List Nat) : Option Served :=
  match Url.requestPath q.uri with
  | none => none
  | some p =>
    match hdrOf (AuthHdr.parseAuthHeader s.odd (toMode s.srv.cfg.authMode)
        (getHeader q.hdrs [65, 117, 116, 104, 111, 114, 105, 122, 97, 116, 105, 111, 110])) with
    | none => none
    | some hdr =>
      (Server.httpRequest s.srv true s.tls ⟨true, s.out, true⟩ (fun _ => s.out) q.method (s.uri p)
        (getHeader q.hdrs [67, 111, 110, 116, 101, 110, 116, 45, 84, 121, 112, 101]) ⟨[], body, none, hdr, []⟩).map fun d =>
        ⟨d.evs.flatMap (render s q d), d.evs⟩

/-- `mg_send_http_error` for requests that do not get to the handlers.
`est_server_http.c` lines 371-399, called in lines 1530-1560. -/
def refuse (st : Nat) (reason text : List Nat) : Served :=
  let b := [69, 114, 114, 111, 114, 32] ++ decimal st ++ [58, 32] ++ reason ++ [10] ++ text
  ⟨[72, 84, 84, 80, 47, 49, 46, 49, 32] ++ decimal st ++ [32] ++ reason ++ [13, 10, 67, 111, 110, 116, 101, 110, 116, 45, 76, 101, 110, 103, 116, 104, 58, 32] ++ decimal b.length ++
    [13, 10, 67, 111, 110, 110, 101, 99, 116, 105, 111, 110, 58, 32, 99, 108, 111, 115, 101, 13, 10, 13, 10] ++ b, []⟩

/-- `process_new_connection`, `est_server_http.c` lines 1510-1573, up to the answer to the first request.  `sched`
says how the bytes `sock` arrive, `h` is what `handle_request` does with the request and its body,
`early` the result for a request that does not get there.  Nothing is written if the request does
not arrive.  `none` is undefined behaviour, also the use of a body that did not come completely
(line 1231).  The request that is quoted in the answer 400 is not cut at a NUL or to 8192 bytes
here. -/
def serveWith {β : Type} (early : Served → β) (h : HttpHdr.Req → List Nat → Option β)
    (sched : List HttpConn.Ev) (sock : List Nat) : Option β :=
  let rr := HttpConn.readRequest bufSize [] sock sched
  match rr.res with
  | .blocked => some (early ⟨[], []⟩)
  | .ret r =>
    if r = 0 ∧ rr.buf.length = bufSize then some (early (refuse 413 [82, 101, 113, 117, 101, 115, 116, 32, 84, 111, 111, 32, 76, 97, 114, 103, 101] []))
    else if r ≤ 0 then some (early ⟨[], []⟩)
    else
      match HttpHdr.parseRequest (rr.buf.take r.toNat) with
      | none =>
        some (early (refuse 400 [66, 97, 100, 32, 82, 101, 113, 117, 101, 115, 116] ([67, 97, 110, 110, 111, 116, 32, 112, 97, 114, 115, 101, 32, 72, 84, 84, 80, 32, 114, 101, 113, 117, 101, 115, 116, 58, 32, 91] ++ rr.buf ++ [93])))
      | some q =>
        if !validUri q.uri then
          some (early (refuse 400 [66, 97, 100, 32, 82, 101, 113, 117, 101, 115, 116] ([67, 97, 110, 110, 111, 116, 32, 112, 97, 114, 115, 101, 32, 72, 84, 84, 80, 32, 114, 101, 113, 117, 101, 115, 116, 58, 32, 91] ++ rr.buf ++ [93])))
        else if !([49, 46, 48].isPrefixOf q.version || [49, 46, 49].isPrefixOf q.version) then
          some (early (refuse 505 [72, 84, 84, 80, 32, 118, 101, 114, 115, 105, 111, 110, 32, 110, 111, 116, 32, 115, 117, 112, 112, 111, 114, 116, 101, 100] []))
        else if contentLen q > HttpConn.maxContentLen then
          some (early (refuse 413 [67, 111, 110, 116, 101, 110, 116, 45, 76, 101, 110, 103, 116, 104, 32, 116, 111, 111, 32, 108, 97, 114, 103, 101] []))
        else if contentLen q < 0 then
          some (early (refuse 400 [66, 97, 100, 32, 82, 101, 113, 117, 101, 115, 116] [67, 111, 110, 116, 101, 110, 116, 45, 76, 101, 110, 103, 116, 104, 32, 105, 115, 32, 110, 101, 103, 97, 116, 105, 118, 101]))
        else
          let m := HttpConn.mgRead ⟨rr.buf, r.toNat, contentLen q, 0⟩ (contentLen q).toNat rr.sock rr.evs
          if m.fin = .blocked then some (early ⟨[], []⟩)
          else if m.bytes.length < (contentLen q).toNat then none
          else h q m.bytes

/-- `process_new_connection` of a server, `est_server_http.c` lines 1510-1573. -/
def serve (s : Site) (sched : List HttpConn.Ev) (sock : List Nat) : Option Served :=
  serveWith id (handle s) sched sock

/-- The answer the client reads when its request goes to this server: the bytes it sent are
served, and what is written comes back.  Bytes the client never wrote count as 0.
`est_client.c` lines 1631-1648 on one side, `est_server_http.c` lines 1510-1573 on the
other. -/
def reply (s : Site) (sched : List HttpConn.Ev) (w : ClientReq.Wire) : Flow.Reply :=
  match w with
  | .sent b =>
    match serve s sched (b.map fun x => x.getD 0) with
    | some sv => .bytes sv.text
    | none => .readFailed
  | _ => .writeFailed

end Verif.Wire
