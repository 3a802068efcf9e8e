import Verif.WireModel

/-!
# Model of the HTTPS proxy from received bytes to sent bytes

Source: `/repo/src/est/est_server_http.c` lines 1211-1275 (`est_mg_handler` in proxy mode,
`handle_request`), 1510-1573 (`process_new_connection`), `/repo/src/est/est_proxy.c` lines
1552-1985 (`est_proxy_http_request`), `/repo/src/est/est_server.c` lines 59-181.

A proxy reads and parses requests and writes errors and challenges with the functions that a
server uses (`WireModel`); between them are the handlers of `ProxyModel`, whose connections to
the upstream server are given by the environment.
-/
namespace Verif.Wire
open Verif.HttpHdr (getHeader)
open Verif.ClientResp (errorText retryText)

/-- A proxy: its configuration, `est_parse_uri` of the build, what the base64 decoder makes of
characters outside the alphabet, the realm, the time, `enable_keepalives`.  What
`est_server_http.c` lines 1211-1285 and 1510-1573 read in proxy mode. -/
structure PSite where
  cfg : Proxy.Cfg
  uri : List Nat → EstUri.Res
  odd : Bool → List Nat → List Nat
  realm : List Nat
  time : Nat
  keep : Bool

/-- What a request to a proxy leads to: the bytes written, the effects and the new state.  The
effects of `est_proxy.c` lines 1552-1985. -/
structure PServed where
  text : List Nat
  evs : List Proxy.PEv
  st : Proxy.State

/-- The bytes of one effect; `e` is the error that is sent in the end.  A status 401 is a
challenge if no error is sent; the only other error that a handler sends by itself is 204.
Status and delay of a retry response are one text.  `est_server.c` lines 59-181,
`est_server_http.c` lines 371-399 and 1069-1112. -/
def renderP (p : PSite) (q : HttpHdr.Req) (e : Option EstErr) : Proxy.PEv → List Nat
  | .srv (.head st) =>
    if st = 202 then []
    else if st = 401 ∧ e = none then
      Challenge.challengeText (toMode p.cfg.srv.authMode) p.realm p.time
    else errorText st (explain (e.getD .httpNoContent))
      (HttpHdr.shouldKeepAlive ⟨false, st, p.keep, some q.version, q.hdrs⟩)
  | .srv (.body b) => b
  | .srv _ => []
  | .write b => b
  | .retryAfter d => retryText d
  | .up _ => []

/-- `handle_request` and `est_mg_handler` in proxy mode, `est_server_http.c` lines 1211-1275, with
`est_proxy_http_request`, `est_proxy.c` lines 1552-1985; `none` is undefined behaviour or a
request that is tried upstream again and again. -/
def handleP (p : PSite) (env : Proxy.Env) (st : Proxy.State) (q : HttpHdr.Req) (body : List Nat) :
    Option PServed :=
  match Url.requestPath q.uri with
  | none => none
  | some u =>
    match hdrOf (AuthHdr.parseAuthHeader p.odd (toMode p.cfg.srv.authMode)
        (getHeader q.hdrs [65, 117, 116, 104, 111, 114, 105, 122, 97, 116, 105, 111, 110])) with
    | none => none
    | some hdr =>
      match Proxy.dispatch p.cfg env ⟨q.method, p.uri u, getHeader q.hdrs [67, 111, 110, 116, 101, 110, 116, 45, 84, 121, 112, 101],
          (getHeader q.hdrs [67, 111, 110, 116, 101, 110, 116, 45, 76, 101, 110, 103, 116, 104]).map fun _ => body, hdr⟩ st with
      | .done t =>
        some ⟨(t.evs ++ Proxy.finish env t t.st).flatMap (renderP p q t.send),
          t.evs ++ Proxy.finish env t t.st, t.st⟩
      | _ => none

/-- `process_new_connection` of a proxy, `est_server_http.c` lines 1510-1573. -/
def serveP (p : PSite) (env : Proxy.Env) (st : Proxy.State) (sched : List HttpConn.Ev)
    (sock : List Nat) : Option PServed :=
  serveWith (fun sv => ⟨sv.text, [], st⟩) (handleP p env st) sched sock

/-- The answer a client, or another proxy, reads when its request goes to this proxy; see
`reply`.  `est_client.c` lines 1631-1648 on one side, `est_server_http.c` lines 1510-1573 on the
other. -/
def replyP (p : PSite) (env : Proxy.Env) (st : Proxy.State) (sched : List HttpConn.Ev)
    (w : ClientReq.Wire) : Flow.Reply :=
  match w with
  | .sent b =>
    match serveP p env st sched (b.map fun x => x.getD 0) with
    | some sv => .bytes sv.text
    | none => .readFailed
  | _ => .writeFailed

end Verif.Wire
