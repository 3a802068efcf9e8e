import Verif.WireModel
import Verif.VoucherModel

/-!
# Model of a registrar from received bytes to sent bytes

Source: `/repo/src/est/est_server.c` lines 2374-2681 (what the three handlers write) and
2988-3055 (which error is sent), the rest as in `Verif.Wire`.  Every write is complete.
-/
namespace Verif.Wire
open Verif.ClientResp (errorText retryText)
open Verif.Server (DOut BEv BrskiOp)

/-- A server that answers BRSKI requests: as before, and `ctx->brski_retry_period`.  What
`est_server.c` lines 2374-2681 read. -/
structure Registrar where
  site : Site
  period : Nat

/-- The header of a response with status 200: `est_server.c` lines 2446-2459 for a voucher, lines
2570-2573 and 2657-2660 for a status indication, where neither a length nor the empty line
at the end is written. -/
def brskiHead (op : BrskiOp) (n : Nat) : List Nat :=
  match op with
  | .voucher => Proxy.head200 [97, 112, 112, 108, 105, 99, 97, 116, 105, 111, 110, 47, 118, 111, 117, 99, 104, 101, 114, 43, 99, 109, 115] n
  | _ => [72, 84, 84, 80, 47, 49, 46, 49, 32, 50, 48, 48, 32, 79, 75, 13, 10, 83, 116, 97, 116, 117, 115, 58, 32, 50, 48, 48, 32, 79, 75, 13, 10]

/-- The error that is sent when a handler failed, `est_server.c` lines 3039-3046. -/
def brskiSent (rc : EstErr) : EstErr := if rc = .authFail then .authFail else .badPkcs10

/-- The bytes of one effect of a BRSKI request, `est_server.c` lines 2446-2511, 2566-2594,
2653-2681 and 3036-3052.  Requests that did not get to one of the three handlers are written
as by `Verif.Wire.render`. -/
def renderB (r : Registrar) (q : HttpHdr.Req) (d : DOut) (e : BEv) : List Nat :=
  match d.handler with
  | some (.brski op) =>
    match e with
    | .ev (.head st) =>
      if st = 200 then brskiHead op (bodyOf d.evs).length
      else if st = 202 then retryText r.period
      else if st = 401 ∧ d.rc = .none then
        Challenge.challengeText (toMode r.site.srv.cfg.authMode) r.site.realm r.site.time
      else errorText st (explain (brskiSent d.rc)) (keepAfter r.site q st)
    | .ev (.body b) => b
    | _ => []
  | _ => render r.site q d e

/-- `handle_request` and `est_mg_handler` of a registrar, `est_server_http.c` lines 1211-1275,
with `est_http_request`, `est_server.c` lines 2700-3081; `none` is undefined behaviour. -/
def handleB (r : Registrar) (q : HttpHdr.Req) (body : List Nat) : Option Served :=
  match Url.requestPath q.uri with
  | none => none
  | some p =>
    match hdrOf (AuthHdr.parseAuthHeader r.site.odd (toMode r.site.srv.cfg.authMode)
        (HttpHdr.getHeader q.hdrs [65, 117, 116, 104, 111, 114, 105, 122, 97, 116, 105, 111, 110])) with
    | none => none
    | some hdr =>
      (Server.httpRequest r.site.srv true r.site.tls ⟨true, r.site.out, true⟩ (fun _ => r.site.out)
        q.method (r.site.uri p) (HttpHdr.getHeader q.hdrs [67, 111, 110, 116, 101, 110, 116, 45, 84, 121, 112, 101])
        ⟨[], body, none, hdr, []⟩).map fun d =>
        ⟨d.evs.flatMap (renderB r q d), d.evs⟩

/-- `process_new_connection` of a registrar, `est_server_http.c` lines 1510-1573. -/
def serveB (r : Registrar) (sched : List HttpConn.Ev) (sock : List Nat) : Option Served :=
  serveWith id (handleB r) sched sock

/-- The answer the client reads when its BRSKI request goes to this registrar, `est_client.c`
lines 5108-5246 and 6172-6268 on one side, `est_server_http.c` lines 1510-1573 on the other. -/
def replyB (r : Registrar) (sched : List HttpConn.Ev) (w : Voucher.Wire) : Flow.Reply :=
  match w with
  | .sent b =>
    match serveB r sched (b.map fun x => x.getD 0) with
    | some sv => .bytes sv.text
    | none => .readFailed
  | _ => .writeFailed

end Verif.Wire
